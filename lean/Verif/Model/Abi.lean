import Verif.Model.Revert
import Verif.Model.Logs
import Verif.Model.Router
/-!
# Model of messages between contracts

A call of a contract carries bytes: the selector of a function and the ABI encoding of its arguments; the reply is the
ABI encoding of the result.  Encoder, decoder and entry point are those of alloy and the Stylus SDK, which are not in the
repository; what they do is taken from the ABI specification.  The decoder of this file is one that reads every encoding
back and refuses words that are not a value of the declared type; it ignores what may stand between and behind the
parts it reads.
-/
namespace Verif.Abi
open Verif
open Verif.Interfaces (SolType functionSelector)
open Verif.Revert (be4)
open Verif.Logs (utf8)
open Verif.Router (Contract Fn)

/-- A value of one of the types that occur in the signatures of the library
(`contracts/src/token/erc1155/mod.rs` 360-419 and the like; the elements of an array of fixed length are values of their own,
see `flat`). -/
inductive Val where
  | address (a : Address)
  | uint256 (x : U256)
  | uint64 (x : BitVec 64)
  | uint8 (x : BitVec 8)
  | bytes4 (x : BitVec 32)
  | bytes32 (x : B256)
  | bool (b : Bool)
  | bytes (b : Bytes)
  | string (s : List Char)
  | uints (l : List U256)
  | addresses (l : List Address)
  | bytes32s (l : List B256)
  | bools (l : List Bool)
  deriving DecidableEq

/-- The type of a value (`contracts/src/token/erc1155/mod.rs` 360-419 and the like). -/
def Val.type : Val → SolType
  | .address _ => .address
  | .uint256 _ => .uint256
  | .uint64 _ => .uint64
  | .uint8 _ => .uint8
  | .bytes4 _ => .bytes4
  | .bytes32 _ => .bytes32
  | .bool _ => .bool
  | .bytes _ => .bytes
  | .string _ => .string
  | .uints _ => .array .uint256
  | .addresses _ => .array .address
  | .bytes32s _ => .array .bytes32
  | .bools _ => .array .bool

/-- A byte string with its length in front and zeros behind, up to a whole word (the `bytes` parameter of
`contracts/src/token/erc721/receiver.rs` 33-38). -/
def sized (b : Bytes) : Bytes :=
  be32 (BitVec.ofNat 256 b.length) ++ b ++ List.replicate ((32 - b.length % 32) % 32) 0#8

/-- How a value is encoded: static types are one word (numbers to the right, `bytes4` to the left), dynamic types are
put behind the heads (the parameters of `contracts/src/token/erc1155/receiver.rs` 33-67). -/
def Val.code : Val → U256 ⊕ Bytes
  | .address a => .inl (a.setWidth 256)
  | .uint256 x => .inl x
  | .uint64 x => .inl (x.setWidth 256)
  | .uint8 x => .inl (x.setWidth 256)
  | .bytes4 x => .inl (x ++ 0#224)
  | .bytes32 x => .inl x
  | .bool b => .inl (if b then 1#256 else 0#256)
  | .bytes b => .inr (sized b)
  | .string s => .inr (sized (utf8 s))
  | .uints l => .inr (be32 (BitVec.ofNat 256 l.length) ++ l.flatMap be32)
  | .addresses l => .inr (be32 (BitVec.ofNat 256 l.length) ++ l.flatMap fun a => be32 (a.setWidth 256))
  | .bytes32s l => .inr (be32 (BitVec.ofNat 256 l.length) ++ l.flatMap be32)
  | .bools l => .inr (be32 (BitVec.ofNat 256 l.length) ++ l.flatMap fun b => be32 (if b then 1#256 else 0#256))

/-- Heads and tails of a parameter list; `off` is where the next tail starts
(the calls of `contracts/src/token/erc1155/mod.rs` 762-789). -/
def headsTails : Nat → List Val → Bytes × Bytes
  | _, [] => ([], [])
  | off, v :: vs =>
    match v.code with
    | .inl w => (be32 w ++ (headsTails off vs).1, (headsTails off vs).2)
    | .inr d => (be32 (BitVec.ofNat 256 off) ++ (headsTails (off + d.length) vs).1, d ++ (headsTails (off + d.length) vs).2)

/-- ABI encoding of a parameter list (`contracts/src/token/erc20/utils/safe_erc20.rs` 345). -/
def encode (vs : List Val) : Bytes :=
  (headsTails (32 * vs.length) vs).1 ++ (headsTails (32 * vs.length) vs).2

/-- The bytes of a call: selector and arguments, `abi_encode` (`contracts/src/token/erc20/utils/safe_erc20.rs` 345). -/
def calldata (K : Hash) (name : String) (args : List Val) : Bytes :=
  be4 (functionSelector K name.toList (args.map Val.type)) ++ encode args

/-! ## Decoding -/

/-- The word of 32 bytes (results of `contracts/src/token/erc20/interface.rs` 12-19). -/
def wordOf (b : Bytes) : U256 := BitVec.ofNat 256 (b.foldl (fun n x => 256 * n + x.toNat) 0)

/-- `n` bytes from position `pos` on, if there are so many (arguments of the `#[public]` functions,
`contracts/src/token/erc20/mod.rs` 270-316). -/
def slice (input : Bytes) (pos n : Nat) : Option Bytes :=
  if pos + n ≤ input.length then some ((input.drop pos).take n) else none

/-- The word at position `pos` (`contracts/src/token/erc20/mod.rs` 270-316). -/
def wordAt (input : Bytes) (pos : Nat) : Option U256 := (slice input pos 32).map wordOf

/-- `n` words from position `pos` on (`contracts/src/token/erc1155/mod.rs` 366-371). -/
def wordsAt (input : Bytes) (pos : Nat) : Nat → Option (List U256)
  | 0 => some []
  | n + 1 => do
    let w ← wordAt input pos
    let ws ← wordsAt input (pos + 32) n
    return w :: ws

/-- An address, if the word is one (`contracts/src/token/erc20/mod.rs` 278). -/
def toAddress (w : U256) : Option Address :=
  if w.toNat < 2 ^ 160 then some (BitVec.ofNat 160 w.toNat) else none

/-- A truth value, if the word is one (`examples/merkle-proofs/src/lib.rs` 65). -/
def truth (w : U256) : Option Bool := if w = 1#256 then some true else if w = 0#256 then some false else none

/-- A byte string at position `pos`: length, then content (`contracts/src/token/erc721/mod.rs` 433-442). -/
def bytesAt (input : Bytes) (pos : Nat) : Option Bytes := do
  let n ← wordAt input pos
  slice input (pos + 32) n.toNat

/-- The value of a type whose head is at position `pos`; offsets count from the start of the input.  Types that occur
in no signature are refused (`contracts/src/token/erc1155/mod.rs` 360-419). -/
def decodeAt (input : Bytes) (pos : Nat) (t : SolType) : Option Val := do
  let w ← wordAt input pos
  match t with
  | .address => (toAddress w).map .address
  | .uint256 => some (.uint256 w)
  | .uint64 => if w.toNat < 2 ^ 64 then some (.uint64 (BitVec.ofNat 64 w.toNat)) else none
  | .uint8 => if w.toNat < 2 ^ 8 then some (.uint8 (BitVec.ofNat 8 w.toNat)) else none
  | .bytes4 => if w.extractLsb' 0 224 = 0#224 then some (.bytes4 (w.extractLsb' 224 32)) else none
  | .bytes32 => some (.bytes32 w)
  | .bool => (truth w).map .bool
  | .bytes => (bytesAt input w.toNat).map .bytes
  | .string => do
    let b ← bytesAt input w.toNat
    let s ← ByteArray.utf8Decode? (b.map fun x => UInt8.ofBitVec x).toByteArray
    return .string s.toList
  | .array .uint256 => do
    let n ← wordAt input w.toNat
    (wordsAt input (w.toNat + 32) n.toNat).map .uints
  | .array .address => do
    let n ← wordAt input w.toNat
    let ws ← wordsAt input (w.toNat + 32) n.toNat
    (ws.mapM toAddress).map .addresses
  | .array .bytes32 => do
    let n ← wordAt input w.toNat
    (wordsAt input (w.toNat + 32) n.toNat).map .bytes32s
  | .array .bool => do
    let n ← wordAt input w.toNat
    let ws ← wordsAt input (w.toNat + 32) n.toNat
    (ws.mapM truth).map .bools
  | _ => none

/-- The arguments of the listed types, the first head at `pos` (`contracts/src/token/erc1155/mod.rs` 360-419). -/
def decodeFrom (input : Bytes) : Nat → List SolType → Option (List Val)
  | _, [] => some []
  | pos, t :: ts => do
    let v ← decodeAt input pos t
    let vs ← decodeFrom input (pos + 32) ts
    return v :: vs

/-- Decoding of a parameter list (`contracts/src/token/erc1155/mod.rs` 360-419). -/
def decode (types : List SolType) (input : Bytes) : Option (List Val) := decodeFrom input 0 types

/-- A value that is one word (`contracts/src/token/erc20/mod.rs` 270-316). -/
def Val.isStatic (v : Val) : Prop := ∃ w, v.code = .inl w

/-- The decoder of the SDK.  Whether it accepts bytes behind the arguments or gaps between them is not fixed here; it reads the encoding of values back, what it reads has the types asked for, and arguments that are
single words stand in the input as they were read (arguments of the `#[public]` functions,
`contracts/src/token/erc20/mod.rs` 270-316, and results of `contracts/src/token/erc20/interface.rs` 12-19). -/
structure Decoder where
  read : List SolType → Bytes → Option (List Val)
  complete : ∀ vs, (encode vs).length < 2 ^ 256 → read (vs.map Val.type) (encode vs) = some vs
  typed : ∀ ts b vs, read ts b = some vs → vs.map Val.type = ts
  static : ∀ ts b vs, read ts b = some vs → (∀ v ∈ vs, v.isStatic) → encode vs <+: b

/-! ## The entry point -/

/-- What a call ends in: returned data, or a revert with data (`Result` of the `#[public]` functions,
`contracts/src/token/erc20/mod.rs` 270-316; `call::Error::Revert`, `contracts/src/token/erc721/mod.rs` 1018). -/
inductive Outcome (σ : Type) where
  | returned (s : σ) (data : Bytes)
  | reverted (data : Bytes)

/-- A function that answers a call: type and name of the Rust function, arguments.  `Except` as in the Rust functions
(`contracts/src/token/erc20/mod.rs` 270-316): new state and result, or the error's bytes (`none` for a panic). -/
abbrev Handler (σ : Type) := String → String → List Val → σ → Except (Option Bytes) (σ × List Val)

/-- The selector at the start of the input (`examples/erc20/src/lib.rs` 26-40). -/
def selectorOf (input : Bytes) : BitVec 32 :=
  BitVec.ofNat 32 ((input.take 4).foldl (fun n x => 256 * n + x.toNat) 0)

/-- The end of a call: the result encoded, or the error's bytes; a panic has none (`examples/erc20/src/lib.rs` 26-40). -/
def outcome {σ : Type} : Except (Option Bytes) (σ × List Val) → Outcome σ
  | .ok (s, result) => .returned s (encode result)
  | .error data => .reverted (data.getD [])

/-- The types of the arguments with arrays of fixed length spread out: they are encoded as their elements one after the other
(`examples/poseidon/src/lib.rs` 20). -/
def flat (ts : List SolType) : List SolType :=
  ts.flatMap fun
    | .uint256Pair => [.uint256, .uint256]
    | t => [t]

/-- `#[entrypoint]` (`examples/erc20/src/lib.rs` 26-40): the function with the selector of the input is run on the
decoded arguments.  A call with value (no function of the tokens is payable), without selector, with the selector of no
function or with arguments that cannot be decoded reverts without data; so does a panic. -/
def entry {σ : Type} (K : Hash) (D : Decoder) (c : Contract) (h : Handler σ) (s : σ) (value : U256) (input : Bytes) :
    Outcome σ :=
  if value ≠ 0#256 then .reverted [] else
  if input.length < 4 then .reverted [] else
  match c.route K (selectorOf input) with
  | none => .reverted []
  | some (t, f) =>
    match D.read (flat f.args) (input.drop 4) with
    | none => .reverted []
    | some args =>
      outcome (h t f.rustName args s)

/-- The state after a call: that of before when the call reverts (`examples/erc20/src/lib.rs` 26-40). -/
def Outcome.after {σ : Type} (s : σ) : Outcome σ → σ
  | .returned s' _ => s'
  | .reverted _ => s

/-- The data of a successful call (`contracts/src/token/erc20/interface.rs` 12-19). -/
def Outcome.reply {σ : Type} : Outcome σ → Option Bytes
  | .returned _ d => some d
  | .reverted _ => none

end Verif.Abi
