import Verif.Base
/-!
# Keccak-256

The hash function of Ethereum (the Keccak submission with rate 1088, capacity 512 and the original `10*1` padding),
written out from the Keccak reference.  It is executable in the kernel.  Used to state interface ids, selectors and
type hashes as numbers; everywhere else the hash is an arbitrary function.
-/
namespace Verif.Spec.Keccak

/-- A 64-bit lane.  The state is 25 lanes; lane `(x, y)` is entry `x + 5 * y`. -/
abbrev Lane := BitVec 64

/-- Lane `(x, y)`, indices modulo 5. -/
def lane (s : List Lane) (x y : Nat) : Lane := s.getD (x % 5 + 5 * (y % 5)) 0#64

/-- The state whose lane `(x, y)` is `f x y`. -/
def tabulate (f : Nat → Nat → Lane) : List Lane := (List.range 25).map fun i => f (i % 5) (i / 5)

/-- θ: xor every lane with the parities of two neighbouring columns. -/
def theta (s : List Lane) : List Lane :=
  let c := (List.range 5).map fun x => lane s x 0 ^^^ lane s x 1 ^^^ lane s x 2 ^^^ lane s x 3 ^^^ lane s x 4
  tabulate fun x y => lane s x y ^^^ c.getD ((x + 4) % 5) 0#64 ^^^ (c.getD ((x + 1) % 5) 0#64).rotateLeft 1

/-- Rotation amounts, by `x + 5 * y`. -/
def offsets : List Nat :=
  [0, 1, 62, 28, 27, 36, 44, 6, 55, 20, 3, 10, 43, 25, 39, 41, 45, 15, 21, 8, 18, 2, 61, 56, 14]

/-- ρ then π: lane `(x, y)` is lane `(x + 3y, x)` rotated by its offset. -/
def rhoPi (s : List Lane) : List Lane :=
  tabulate fun x y =>
    let x' := (x + 3 * y) % 5
    (lane s x' x).rotateLeft (offsets.getD (x' + 5 * x) 0)

/-- χ: the only nonlinear step. -/
def chi (s : List Lane) : List Lane :=
  tabulate fun x y => lane s x y ^^^ (~~~ (lane s (x + 1) y) &&& lane s (x + 2) y)

/-- ι: xor the round constant into lane `(0, 0)`. -/
def iota (rc : Lane) (s : List Lane) : List Lane := (lane s 0 0 ^^^ rc) :: s.tail

/-- The 24 round constants. -/
def roundConstants : List Lane :=
  [0x0000000000000001#64, 0x0000000000008082#64, 0x800000000000808a#64, 0x8000000080008000#64,
   0x000000000000808b#64, 0x0000000080000001#64, 0x8000000080008081#64, 0x8000000000008009#64,
   0x000000000000008a#64, 0x0000000000000088#64, 0x0000000080008009#64, 0x000000008000000a#64,
   0x000000008000808b#64, 0x800000000000008b#64, 0x8000000000008089#64, 0x8000000000008003#64,
   0x8000000000008002#64, 0x8000000000000080#64, 0x000000000000800a#64, 0x800000008000000a#64,
   0x8000000080008081#64, 0x8000000000008080#64, 0x0000000080000001#64, 0x8000000080008008#64]

/-- Keccak-f[1600]. -/
def permute (s : List Lane) : List Lane :=
  roundConstants.foldl (fun s rc => iota rc (chi (rhoPi (theta s)))) s

/-- Padding to a multiple of the 136-byte rate: a one bit, zeros, a one bit (little-endian in bytes). -/
def pad (m : List U8) : List U8 :=
  let q := 136 - m.length % 136
  if q = 1 then m ++ [0x81#8] else m ++ [0x01#8] ++ List.replicate (q - 2) 0#8 ++ [0x80#8]

/-- Little-endian value. -/
def leNat (l : List U8) : Nat := l.foldr (fun b n => b.toNat + 256 * n) 0

/-- Absorb one 136-byte block: 17 lanes, least significant byte first. -/
def absorb (s : List Lane) (block : List U8) : List Lane :=
  permute ((List.range 25).map fun i => s.getD i 0#64 ^^^ BitVec.ofNat 64 (leNat ((block.drop (8 * i)).take 8)))

/-- The first `n` blocks of a message. -/
def blocks : Nat → List U8 → List (List U8)
  | 0, _ => []
  | n + 1, m => m.take 136 :: blocks n (m.drop 136)

/-- The first 32 bytes of the state, as a big-endian number: the way a digest is written. -/
def digest (s : List Lane) : BitVec 256 :=
  BitVec.ofNat 256 (((s.take 4).flatMap fun (l : Lane) => (List.range 8).map fun i => l.extractLsb' (8 * i) 8).foldl
    (fun n (b : U8) => b.toNat + 256 * n) 0)

/-- Keccak-256 of a byte string. -/
def keccak256 (m : List U8) : BitVec 256 :=
  digest ((blocks (m.length / 136 + 1) (pad m)).foldl absorb (List.replicate 25 0#64))

/-- The bytes of an ASCII string. -/
def ascii (s : String) : List U8 := s.toList.map fun c => BitVec.ofNat 8 c.toNat

/-- Padding fills exactly the blocks that are absorbed. -/
theorem length_pad (m : List U8) : (pad m).length = 136 * (m.length / 136 + 1) := by
  have h := Nat.mod_add_div m.length 136
  have hlt : m.length % 136 < 136 := Nat.mod_lt _ (by decide)
  unfold pad
  dsimp only
  split
  · simp; omega
  · simp; omega

end Verif.Spec.Keccak
