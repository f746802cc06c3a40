import Verif.Spec.Revert
import Verif.Spec.Logs
/-!
# Calldata, as the ABI defines it
-/
namespace Verif.Spec.Calls
open Verif.Spec.Keccak
open Verif.Spec.Revert (word addr)

/-- The first four bytes of the hash of a signature. -/
def sel (sig : String) : List U8 := (word (keccak256 (Verif.Spec.Keccak.ascii sig))).take 4

/-- A call of the function with this signature; all arguments are single words. -/
def call (sig : String) (args : List (BitVec 256)) : List U8 := sel sig ++ args.flatMap word

/-- A byte string behind the heads: its length, its bytes, and zeros up to a multiple of 32 bytes. -/
def tail (b : List U8) : List U8 :=
  word (BitVec.ofNat 256 b.length) ++ b ++ List.replicate ((32 - b.length % 32) % 32) 0#8

/-- An array of numbers behind the heads: its length and its elements. -/
def array (l : List (BitVec 256)) : List U8 := word (BitVec.ofNat 256 l.length) ++ l.flatMap word

/-- A truth value as a word. -/
def flag (b : Bool) : BitVec 256 := if b then 1#256 else 0#256

end Verif.Spec.Calls
