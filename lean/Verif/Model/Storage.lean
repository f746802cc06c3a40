import Verif.Model.Crypto
/-!
# Model of contract storage

A contract's storage is a table of 2^256 words.  `#[storage]` lays the fields of a struct out in it by the rules of
Solidity (so says the documentation of the Stylus SDK, whose source is not in the repository): small values share a
word, the first one in the low bytes; a value that does not fit, a struct, a map, a vector and a string start a new
word; what follows a struct starts a new word as well.  The entry of a map sits at the hash of the key and the map's own
word, the elements of a vector behind the hash of the vector's word.

The struct definitions of the library and the examples follow, generated from the sources.
-/
namespace Verif.Storage
open Verif

mutual
/-- The type of a storage field: a value of so many bytes, a `StorageMap`, a `StorageVec`, a `StorageString` or a
`#[storage]` struct (`contracts/src/token/erc20/mod.rs` 131-139 and the like).  The key type of a map does not matter for
the layout: all keys that occur are hashed as one word. -/
inductive Ty where
  | scalar (bytes : Nat)
  | map (value : Ty)
  | vec (elem : Ty)
  | string
  | struct (fields : Fields)

/-- The fields of a struct, in order (`contracts/src/token/erc20/mod.rs` 131-139 and the like). -/
inductive Fields where
  | nil
  | cons (name : String) (ty : Ty) (rest : Fields)
end

/-- Field lists (`contracts/src/token/erc20/mod.rs` 131-139 and the like). -/
def Fields.ofList : List (String × Ty) → Fields
  | [] => .nil
  | (n, t) :: l => .cons n t (Fields.ofList l)

/-- A struct with the given fields (`contracts/src/token/erc20/mod.rs` 131-139 and the like). -/
def struct (l : List (String × Ty)) : Ty := .struct (.ofList l)

/-- Bytes a field takes in its word; maps, vectors and strings have a word of their own
(`contracts/src/token/erc20/mod.rs` 131-139 and the like). -/
def Ty.width : Ty → Nat
  | .scalar b => b
  | _ => 32

/-- Where a field goes when the words before `p.1` are full and `p.2` bytes of that word are taken: into the same word if
it fits, else into the next one (`contracts/src/token/erc20/extensions/erc4626.rs` 140-149). -/
def place (t : Ty) (p : Nat × Nat) : Nat × Nat :=
  match t with
  | .struct _ => if p.2 = 0 then p else (p.1 + 1, 0)
  | t => if p.2 + t.width ≤ 32 then p else (p.1 + 1, 0)

mutual
/-- Whole words a type takes (`contracts/src/token/erc20/mod.rs` 131-139 and the like). -/
def Ty.words : Ty → Nat
  | .struct fs => let p := fs.walk (0, 0); if p.2 = 0 then p.1 else p.1 + 1
  | _ => 1

/-- The position behind the fields, beginning at `p` (`contracts/src/token/erc20/mod.rs` 131-139 and the like). -/
def Fields.walk : Fields → Nat × Nat → Nat × Nat
  | .nil, p => p
  | .cons _ t rest, p =>
    let q := place t p
    rest.walk (match t with | .struct _ => (q.1 + t.words, 0) | t => (q.1, q.2 + t.width))
end

/-- The position behind a field that was placed at `q` (`contracts/src/token/erc20/mod.rs` 131-139 and the like). -/
def behind (t : Ty) (q : Nat × Nat) : Nat × Nat :=
  match t with
  | .struct _ => (q.1 + t.words, 0)
  | t => (q.1, q.2 + t.width)

/-- Word, byte and type of the field with the given name (`contracts/src/token/erc20/mod.rs` 131-139 and the like). -/
def Fields.locate (name : String) : Fields → Nat × Nat → Option (Nat × Nat × Ty)
  | .nil, _ => none
  | .cons n t rest, p =>
    let q := place t p
    if n = name then some (q.1, q.2, t) else rest.locate name (behind t q)

/-- One step on the way to a cell: a field of a struct, the entry of a map under a key, an element of a vector (or the
i-th word of a long string), as in `self.allowances.getter(owner).get(spender)`, `contracts/src/token/erc20/mod.rs` 293. -/
inductive Step where
  | field (name : String)
  | key (k : U256)
  | index (i : Nat)
  deriving DecidableEq

/-- A place in storage: `disp` words behind the word `base` leads to (the hash of `x` for `some x`, the first word of the
storage for `none`), from byte `low` of that word, counted from the low end
(`contracts/src/token/erc20/mod.rs` 131-139 and the like). -/
structure Loc where
  base : Option Bytes
  disp : Nat
  low : Nat
  ty : Ty

/-- The word a base leads to (`contracts/src/token/erc20/mod.rs` 131-139 and the like). -/
def origin (K : Hash) : Option Bytes → U256
  | none => 0#256
  | some x => K x

/-- The number of the word a place is in (`contracts/src/token/erc20/mod.rs` 131-139 and the like). -/
def Loc.slot (K : Hash) (l : Loc) : U256 := origin K l.base + BitVec.ofNat 256 l.disp

/-- Elements of a vector that share a word (`contracts/src/token/erc721/extensions/enumerable.rs` 77). -/
def perWord : Ty → Nat
  | .scalar b => 32 / b
  | _ => 1

/-- The place of the i-th element of a vector whose length is in the word `s`
(`contracts/src/token/erc721/extensions/enumerable.rs` 77, `contracts/src/utils/structs/checkpoints/mod.rs` 56). -/
def element (s : U256) (e : Ty) (i : Nat) : Loc :=
  ⟨some (be32 s), e.words * (i / perWord e), e.width * (i % perWord e), e⟩

/-- One step (`contracts/src/token/erc20/mod.rs` 293 and the like). -/
def Loc.step (K : Hash) (l : Loc) : Step → Option Loc
  | .field n =>
    match l.ty with
    | .struct fs => (fs.locate n (0, 0)).map fun q => ⟨l.base, l.disp + q.1, q.2.1, q.2.2⟩
    | _ => none
  | .key k =>
    match l.ty with
    | .map v => some ⟨some (be32 k ++ be32 (l.slot K)), 0, 0, v⟩
    | _ => none
  | .index i =>
    match l.ty with
    | .vec e => some (element (l.slot K) e i)
    | .string => some (element (l.slot K) (.scalar 32) i)
    | _ => none

/-- Follow a path (`contracts/src/token/erc20/mod.rs` 293 and the like). -/
def Loc.walk (K : Hash) (l : Loc) : List Step → Option Loc
  | [] => some l
  | s :: p => (l.step K s).bind fun l' => l'.walk K p

/-- The place a path leads to in a contract whose storage struct is `t`: structs begin at the first word
(`examples/erc20/src/lib.rs` 26-37). -/
def cell (K : Hash) (t : Ty) (p : List Step) : Option Loc := Loc.walk K ⟨none, 0, 0, t⟩ p

/-- The storage of a contract. -/
abbrev Words := U256 → U256

/-- The lowest `8 * n` bits set. -/
def mask (n : Nat) : U256 := BitVec.ofNat 256 (2 ^ (8 * n) - 1)

/-- Read the value at a place: `get` of the storage types (`contracts/src/token/erc20/mod.rs` 275 and the like). -/
def read (K : Hash) (st : Words) (l : Loc) : U256 := (st (l.slot K) >>> (8 * l.low)) &&& mask l.ty.width

/-- Write a value to a place and leave the rest of its word alone: `set` of the storage types
(`contracts/src/token/erc20/mod.rs` 484 and the like). -/
def write (K : Hash) (st : Words) (l : Loc) (v : U256) : Words :=
  upd st (l.slot K) ((st (l.slot K) &&& ~~~(mask l.ty.width <<< (8 * l.low))) |||
    ((v &&& mask l.ty.width) <<< (8 * l.low)))

/-- `StorageU256`, `contracts/src/token/erc20/mod.rs` 138. -/
def u256 : Ty := .scalar 32
/-- `StorageFixedBytes<32>`, `contracts/src/access/control.rs` 129. -/
def bytes32 : Ty := .scalar 32
/-- `StorageAddress`, `contracts/src/access/ownable.rs` 71. -/
def address : Ty := .scalar 20
/-- `StorageUint<160, 3>`, `contracts/src/utils/structs/checkpoints/generic_size.rs` 63. -/
def u160 : Ty := .scalar 20
/-- `StorageUint<96, 2>`, `contracts/src/token/common/erc2981.rs` 37. -/
def u96 : Ty := .scalar 12
/-- `StorageU64`, `contracts/src/finance/vesting_wallet.rs` 120. -/
def u64 : Ty := .scalar 8
/-- `StorageU8`, `contracts/src/token/erc20/extensions/erc4626.rs` 144. -/
def u8 : Ty := .scalar 1
/-- `StorageBool`, `contracts/src/utils/pausable.rs` 76. -/
def bool : Ty := .scalar 1

/-- `RoleData`, `contracts/src/access/control.rs` 125-130. -/
def roleData : Ty := struct [("has_role", .map bool), ("admin_role", bytes32)]

/-- `AccessControl`, `contracts/src/access/control.rs` 134-137. -/
def accessControl : Ty := struct [("roles", .map roleData)]

/-- `Ownable`, `contracts/src/access/ownable.rs` 69-72. -/
def ownable : Ty := struct [("owner", address)]

/-- `Ownable2Step`, `contracts/src/access/ownable_two_step.rs` 52-59. -/
def ownable2Step : Ty := struct [("ownable", ownable), ("pending_owner", address)]

/-- `SafeErc20`, `contracts/src/token/erc20/utils/safe_erc20.rs` 94. -/
def safeErc20 : Ty := struct []

/-- `VestingWallet`, `contracts/src/finance/vesting_wallet.rs` 110-125. -/
def vestingWallet : Ty := struct [("ownable", ownable), ("released", u256), ("erc20_released", .map u256),
  ("start", u64), ("duration", u64), ("safe_erc20", safeErc20)]

/-- `RoyaltyInfo`, `contracts/src/token/common/erc2981.rs` 108-113. -/
def royaltyInfo : Ty := struct [("receiver", address), ("royalty_fraction", u96)]

/-- `Erc2981`, `contracts/src/token/common/erc2981.rs` 117-125. -/
def erc2981 : Ty := struct [("default_royalty_info", royaltyInfo), ("token_royalty_info", .map royaltyInfo),
  ("fee_denominator", u96)]

/-- `Erc1155MetadataUri`, `contracts/src/token/erc1155/extensions/metadata_uri.rs` 35-39. -/
def erc1155MetadataUri : Ty := struct [("uri", .string)]

/-- `Erc1155`, `contracts/src/token/erc1155/mod.rs` 201-207. -/
def erc1155 : Ty := struct [("balances", .map (.map u256)), ("operator_approvals", .map (.map bool))]

/-- `Erc1155Supply`, `contracts/src/token/erc1155/extensions/supply.rs` 36-43. -/
def erc1155Supply : Ty := struct [("erc1155", erc1155), ("total_supply", .map u256), ("total_supply_all", u256)]

/-- `Erc1155UriStorage`, `contracts/src/token/erc1155/extensions/uri_storage.rs` 17-22. -/
def erc1155UriStorage : Ty := struct [("base_uri", .string), ("token_uris", (.map .string))]

/-- `Capped`, `contracts/src/token/erc20/extensions/capped.rs` 52-55. -/
def capped : Ty := struct [("cap", u256)]

/-- `Erc4626`, `contracts/src/token/erc20/extensions/erc4626.rs` 140-149. -/
def erc4626 : Ty := struct [("asset", address), ("underlying_decimals", u8), ("decimals_offset", u8),
  ("safe_erc20", safeErc20)]

/-- `Erc20FlashMint`, `contracts/src/token/erc20/extensions/flash_mint.rs` 129-134. -/
def erc20FlashMint : Ty := struct [("flash_fee_value", u256), ("flash_fee_receiver_address", address)]

/-- `Metadata`, `contracts/src/utils/metadata.rs` 8-13. -/
def metadata : Ty := struct [("name", .string), ("symbol", .string)]

/-- `Erc20Metadata`, `contracts/src/token/erc20/extensions/metadata.rs` 18-21. -/
def erc20Metadata : Ty := struct [("metadata", metadata)]

/-- `Eip712`, `examples/erc20-permit/src/lib.rs` 28. -/
def eip712 : Ty := struct []

/-- `Erc20Permit`, `contracts/src/token/erc20/extensions/permit.rs` 79-82. -/
def erc20Permit : Ty := struct [("eip712", eip712)]

/-- `Erc20Wrapper`, `contracts/src/token/erc20/extensions/wrapper.rs` 89-96. -/
def erc20Wrapper : Ty := struct [("underlying", address), ("underlying_decimals", u8), ("safe_erc20", safeErc20)]

/-- `Erc20`, `contracts/src/token/erc20/mod.rs` 131-139. -/
def erc20 : Ty := struct [("balances", .map u256), ("allowances", .map (.map u256)), ("total_supply", u256)]

/-- `Erc721`, `contracts/src/token/erc721/mod.rs` 188-198. -/
def erc721 : Ty := struct [("owners", .map address), ("balances", .map u256),
  ("token_approvals", .map address), ("operator_approvals", .map (.map bool))]

/-- `Checkpoint`, `contracts/src/utils/structs/checkpoints/mod.rs` 61-66. -/
def checkpoint : Ty := struct [("key", u96), ("value", u160)]

/-- `Trace`, `contracts/src/utils/structs/checkpoints/mod.rs` 54-57. -/
def trace : Ty := struct [("checkpoints", .vec checkpoint)]

/-- `BitMap`, `contracts/src/utils/structs/bitmap.rs` 28-31. -/
def bitMap : Ty := struct [("data", .map u256)]

/-- `Erc721Consecutive`, `contracts/src/token/erc721/extensions/consecutive.rs` 133-147. -/
def erc721Consecutive : Ty := struct [("erc721", erc721), ("sequential_ownership", trace),
  ("sequential_burn", bitMap), ("first_consecutive_id", u96), ("max_batch_size", u96)]

/-- `Erc721Enumerable`, `contracts/src/token/erc721/extensions/enumerable.rs` 71-80. -/
def erc721Enumerable : Ty := struct [("owned_tokens", .map (.map u256)), ("owned_tokens_index", .map u256),
  ("all_tokens", .vec u256), ("all_tokens_index", .map u256)]

/-- `Erc721Metadata`, `contracts/src/token/erc721/extensions/metadata.rs` 22-27. -/
def erc721Metadata : Ty := struct [("metadata", metadata), ("base_uri", .string)]

/-- `Erc721UriStorage`, `contracts/src/token/erc721/extensions/uri_storage.rs` 40-43. -/
def erc721UriStorage : Ty := struct [("token_uris", (.map .string))]

/-- `Erc721Wrapper`, `contracts/src/token/erc721/extensions/wrapper.rs` 72-75. -/
def erc721Wrapper : Ty := struct [("underlying", address)]

/-- `Nonces`, `contracts/src/utils/nonces.rs` 46-49. -/
def nonces : Ty := struct [("nonces", .map u256)]

/-- `Pausable`, `contracts/src/utils/pausable.rs` 74-77. -/
def pausable : Ty := struct [("paused", bool)]

/-- `AccessControlExample`, `examples/access-control/src/lib.rs` 21-26. -/
def accessControlExample : Ty := struct [("erc20", erc20), ("access", accessControl)]

/-- `Erc20Example`, `examples/basic/token/src/lib.rs` 14-19. -/
def basicToken : Ty := struct [("erc20", erc20), ("metadata", erc20Metadata)]

/-- `ECDSAExample`, `examples/ecdsa/src/lib.rs` 12. -/
def ecdsaExample : Ty := struct []

/-- `Erc1155MetadataUriExample`, `examples/erc1155-metadata-uri/src/lib.rs` 16-21. -/
def erc1155MetadataUriExample : Ty := struct [("erc1155", erc1155), ("metadata_uri", erc1155MetadataUri),
  ("uri_storage", erc1155UriStorage)]

/-- `Erc1155Example`, `examples/erc1155-supply/src/lib.rs` 19-22. -/
def erc1155SupplyExample : Ty := struct [("erc1155_supply", erc1155Supply)]

/-- `Erc1155Example`, `examples/erc1155/src/lib.rs` 21-26. -/
def erc1155Example : Ty := struct [("erc1155", erc1155), ("pausable", pausable)]

/-- `Erc20FlashMintExample`, `examples/erc20-flash-mint/src/lib.rs` 22-27. -/
def erc20FlashMintExample : Ty := struct [("erc20", erc20), ("flash_mint", erc20FlashMint)]

/-- `Erc20PermitExample`, `examples/erc20-permit/src/lib.rs` 18-25. -/
def erc20PermitExample : Ty := struct [("erc20", erc20), ("nonces", nonces), ("erc20_permit", erc20Permit)]

/-- `Erc20WrapperExample`, `examples/erc20-wrapper/src/lib.rs` 15-20. -/
def erc20WrapperExample : Ty := struct [("erc20", erc20), ("erc20_wrapper", erc20Wrapper)]

/-- `Erc20Example`, `examples/erc20/src/lib.rs` 28-37. -/
def erc20Example : Ty := struct [("erc20", erc20), ("metadata", erc20Metadata), ("capped", capped),
  ("pausable", pausable)]

/-- `Erc4626Example`, `examples/erc4626/src/lib.rs` 22-29. -/
def erc4626Example : Ty := struct [("erc20", erc20), ("metadata", erc20Metadata), ("erc4626", erc4626)]

/-- `Erc721ConsecutiveExample`, `examples/erc721-consecutive/src/lib.rs` 16-19. -/
def erc721ConsecutiveExample : Ty := struct [("erc721_consecutive", erc721Consecutive)]

/-- `Erc721MetadataExample`, `examples/erc721-metadata/src/lib.rs` 22-28. -/
def erc721MetadataExample : Ty := struct [("erc721", erc721), ("metadata", erc721Metadata),
  ("uri_storage", erc721UriStorage)]

/-- `Erc721WrapperExample`, `examples/erc721-wrapper/src/lib.rs` 15-20. -/
def erc721WrapperExample : Ty := struct [("erc721", erc721), ("erc721_wrapper", erc721Wrapper)]

/-- `Erc721Example`, `examples/erc721/src/lib.rs` 28-35. -/
def erc721Example : Ty := struct [("erc721", erc721), ("enumerable", erc721Enumerable), ("pausable", pausable)]

/-- `VerifierContract`, `examples/merkle-proofs/src/lib.rs` 53. -/
def merkleProofsExample : Ty := struct []

/-- `Ownable2StepExample`, `examples/ownable-two-step/src/lib.rs` 21-26. -/
def ownableTwoStepExample : Ty := struct [("erc20", erc20), ("ownable", ownable2Step)]

/-- `OwnableExample`, `examples/ownable/src/lib.rs` 21-26. -/
def ownableExample : Ty := struct [("erc20", erc20), ("ownable", ownable)]

/-- `PoseidonExample`, `examples/poseidon/src/lib.rs` 16. -/
def poseidonExample : Ty := struct []

/-- `SafeErc20Example`, `examples/safe-erc20/src/lib.rs` 9-12. -/
def safeErc20Example : Ty := struct [("safe_erc20", safeErc20)]

/-- `VestingWalletExample`, `examples/vesting-wallet/src/lib.rs` 9-12. -/
def vestingWalletExample : Ty := struct [("vesting_wallet", vestingWallet)]


end Verif.Storage
