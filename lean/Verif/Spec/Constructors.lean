import Verif.Model.Constructors
import Verif.Spec.Storage
/-! # Specification: deployment -/

namespace Verif.Spec.Constructors
open Verif Verif.Storage Verif.Constructors Verif.Spec.Storage

mutual
/-- The same type, up to the names of struct fields. -/
def same : Ty → Ty → Bool
  | .scalar a, .scalar b => a == b
  | .map a, .map b => same a b
  | .vec a, .vec b => same a b
  | .string, .string => true
  | .struct a, .struct b => sameFields a b
  | _, _ => false

/-- The same fields, up to their names. -/
def sameFields : Fields → Fields → Bool
  | .nil, .nil => true
  | .cons _ a r, .cons _ b s => same a b && sameFields r s
  | _, _ => false
end

mutual
/-- All variables of a contract with their word, their byte and their type, in order; structs are replaced by what they
consist of. -/
def leaves : Ty → Nat → List (Nat × Nat × Ty)
  | .struct fs, base => leavesOf fs base (0, 0)
  | _, _ => []

/-- The same for a list of fields of a struct that begins at word `base`. -/
def leavesOf : Fields → Nat → Nat × Nat → List (Nat × Nat × Ty)
  | .nil, _, _ => []
  | .cons _ t rest, base, p =>
    let q := place t p
    (match t with
      | .struct fs => leaves (.struct fs) (base + q.1)
      | t => [(base + q.1, q.2, t)]) ++ leavesOf rest base (behind t q)
end

/-- The variables of the first contract are variables of the second: same word, same byte, same type. -/
def agree : List (Nat × Nat × Ty) → List (Nat × Nat × Ty) → Bool
  | [], _ => true
  | _ :: _, [] => false
  | a :: as, b :: bs => a.1 == b.1 && a.2.1 == b.2.1 && same a.2.2 b.2.2 && agree as bs

/-- What a list of assignments leaves in a cell: the last value assigned to it, else what was there. -/
def left (q : Path) (ws : List (Path × U256)) (a : U256) : U256 :=
  ws.foldl (fun a w => if w.1 = q then w.2 else a) a

/-- A cell that holds a value, and no struct or vector on the way to it reaches further than `n` words. -/
def Cell (K : Hash) (n : Nat) (t : Ty) (p : Path) : Prop := ∃ l, cell K t p = some l ∧ Leaf l.ty ∧ Within K n t p

/-- No hash values on the way to two different ones of the cells coincide. -/
def Clear (K : Hash) (n : Nat) (t : Ty) (ps : List Path) : Prop :=
  ∀ p ∈ ps, ∀ q ∈ ps, p ≠ q → ¬ Coincidence K n t p q

/-- The Rust struct and the Solidity contract of the examples that have a constructor. -/
def deployed : List (Ty × Ty) :=
  [(accessControlExample, accessControlSol), (basicToken, basicTokenSol),
   (erc1155MetadataUriExample, erc1155MetadataUriSol), (erc1155Example, erc1155Sol), (erc20FlashMintExample, flashMintSol),
   (erc20PermitExample, permitSol), (erc20WrapperExample, erc20WrapperSol), (erc20Example, erc20Sol),
   (erc4626Example, erc4626Sol), (erc721ConsecutiveExample, erc721ConsecutiveSol),
   (erc721MetadataExample, erc721MetadataSol), (erc721WrapperExample, erc721WrapperSol), (erc721Example, erc721Sol),
   (ownableTwoStepExample, ownableTwoStepSol), (ownableExample, ownableSol), (vestingWalletExample, vestingWalletSol)]

end Verif.Spec.Constructors
