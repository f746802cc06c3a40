import Verif.Model.Abi
import Verif.Spec.Calls
/-!
# Messages to a contract, as the ABI defines them
-/
namespace Verif.Spec.Contracts
open Verif Verif.Abi
open Verif.Spec.Revert (word addr)
open Verif.Spec.Calls (sel tail array flag)

/-- How an argument is sent: as a word in the head, or as bytes behind the heads. -/
inductive Arg where
  | word (w : BitVec 256)
  | behind (b : List U8)

/-- The encoding of a value. -/
def arg : Val → Arg
  | .address a => .word (addr a)
  | .uint256 x => .word x
  | .uint64 x => .word (BitVec.ofNat 256 x.toNat)
  | .uint8 x => .word (BitVec.ofNat 256 x.toNat)
  | .bytes4 x => .word (x ++ 0#224)
  | .bytes32 x => .word x
  | .bool b => .word (flag b)
  | .bytes b => .behind (tail b)
  | .string s => .behind (tail (Logs.utf8 s))
  | .uints l => .behind (array l)
  | .addresses l => .behind (array (l.map addr))
  | .bytes32s l => .behind (array l)
  | .bools l => .behind (array (l.map flag))

/-- The heads: a word each, which is the value or the position of its bytes; `pos` is where the next bytes go. -/
def heads : Nat → List Arg → List U8
  | _, [] => []
  | pos, .word w :: l => word w ++ heads pos l
  | pos, .behind b :: l => word (BitVec.ofNat 256 pos) ++ heads (pos + b.length) l

/-- The bytes behind the heads. -/
def tails : List Arg → List U8
  | [] => []
  | .word _ :: l => tails l
  | .behind b :: l => b ++ tails l

/-- A list of values: heads, then tails. -/
def values (vs : List Val) : List U8 := heads (32 * vs.length) (vs.map arg) ++ tails (vs.map arg)

/-- The bytes of a call of the function with this signature. -/
def message (sig : String) (args : List Val) : List U8 := sel sig ++ values args

/-- The input is a call of the function with this signature and these arguments: it starts with the selector, the decoder
reads the arguments behind it, and if all of them are words, they are there as they should be. -/
structure Says (D : Decoder) (input : Bytes) (sig : String) (args : List Val) : Prop where
  selector : sel sig <+: input
  arguments : D.read (args.map Val.type) (input.drop 4) = some args
  words : (∀ v ∈ args, ∃ w, arg v = .word w) → message sig args <+: input

/-- What a call ends in, as bytes. -/
def reply {σ ε : Type} (revert : ε → Bytes) : Except ε (σ × List Val) → Outcome σ
  | .ok (s, r) => .returned s (values r)
  | .error e => .reverted (revert e)

/-- A function that returns the state and these values. -/
def giving {σ ε : Type} : Except ε σ → List Val → Except ε (σ × List Val)
  | .ok s, r => .ok (s, r)
  | .error e, _ => .error e

/-- A raw transaction in an environment (sender and whatever else the contract sees). -/
structure Raw (Env : Type) where
  env : Env
  value : U256
  input : Bytes

/-- The state after a list of raw transactions. -/
def after {σ Env : Type} (run : Env → σ → U256 → Bytes → Outcome σ) (s : σ) (txs : List (Raw Env)) : σ :=
  txs.foldl (fun s tx => (run tx.env s tx.value tx.input).after s) s

/-- The state after a list of operations: a failed one leaves no trace. -/
def history {σ Env Op ε : Type} (exec : Env → σ → Op → Except ε (σ × List Val)) (s : σ) (ops : List (Env × Op)) : σ :=
  ops.foldl (fun s op => match exec op.1 s op.2 with | .ok (s', _) => s' | .error _ => s) s

/-- The operations, sent as messages without value. -/
def sent {Env Op : Type} (abi : Op → String × List Val) (l : List (Env × Op)) : List (Raw Env) :=
  l.map fun x => ⟨x.1, 0#256, message (abi x.2).1 (abi x.2).2⟩

/-- What an account gets to know that asks a question without sending value: the bytes of the answer, `none` if it is refused. -/
def answer {σ Env : Type} (run : Env → σ → U256 → Bytes → Outcome σ) (env : Env) (s : σ) (sig : String) (args : List Val) :
    Option Bytes := (run env s 0#256 (message sig args)).reply

end Verif.Spec.Contracts
