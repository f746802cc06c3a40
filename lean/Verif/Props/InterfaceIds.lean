import Verif.Model.Interfaces
import Verif.Spec.Interfaces
import Mathlib.Data.List.Perm.Basic
/-! # C87: the interface ids are those of the standards, for every hash function -/

namespace Verif.Props.Interfaces
open Verif.Interfaces
open Verif.Spec.Keccak (keccak256 ascii)

/-- The signatures the macro hashes, in trait order. -/
def macroSigs (fns : List TraitFn) : List (List Char) := fns.map fun f => signature (solidityName f) (argTypes f)

/-- The signatures of a hand-written id, in source order. -/
def manualSigs (fns : List (String × List SolType)) : List (List Char) := fns.map fun f => signature f.1.toList f.2

private def xorAll (K : Hash) (l : List (List Char)) : BitVec 32 :=
  l.foldr (fun s acc => (K (s.map fun c => BitVec.ofNat 8 c.toNat)).extractLsb' 224 32 ^^^ acc) 0#32

private theorem xorAll_perm (K : Hash) {l l' : List (List Char)} (h : l.Perm l') : xorAll K l = xorAll K l' := by
  induction h with
  | nil => rfl
  | cons x _ ih => simp only [xorAll, List.foldr_cons] at ih ⊢; rw [ih]
  | swap x y l =>
    simp only [xorAll, List.foldr_cons]
    rw [← BitVec.xor_assoc, ← BitVec.xor_assoc, BitVec.xor_comm (BitVec.extractLsb' 224 32 (K _))]
  | trans _ _ ih1 ih2 => exact ih1.trans ih2

private theorem xorAll_spec (K : Hash) (sigs : List String) :
    xorAll K (sigs.map String.toList) = Spec.Interfaces.interfaceId K sigs := by
  induction sigs with
  | nil => rfl
  | cons s sigs ih =>
    simp only [xorAll, List.map_cons, List.foldr_cons, Spec.Interfaces.interfaceId] at ih ⊢
    rw [ih]; rfl

private theorem foldl_xor {α : Type} (f : α → BitVec 32) (l : List α) (acc : BitVec 32) :
    l.foldl (fun a x => a ^^^ f x) acc = acc ^^^ l.foldr (fun x a => f x ^^^ a) 0#32 := by
  induction l generalizing acc with
  | nil => simp
  | cons x l ih => rw [List.foldl_cons, ih, List.foldr_cons, BitVec.xor_assoc]

private theorem interfaceId_eq (K : Hash) (fns : List TraitFn) : interfaceId K fns = xorAll K (macroSigs fns) := by
  rw [interfaceId, foldl_xor, BitVec.zero_xor]
  simp only [xorAll, macroSigs, List.foldr_map]
  rfl

private theorem manualId_eq (K : Hash) (fns : List (String × List SolType)) :
    manualId K fns = xorAll K (manualSigs fns) := by
  rw [manualId, foldl_xor, BitVec.zero_xor]
  simp only [xorAll, manualSigs, List.foldr_map]
  rfl

/-- **C87** The id does not depend on the order in which a trait declares its functions. -/
theorem C87_order (K : Hash) {fns fns' : List TraitFn} (h : fns.Perm fns') :
    interfaceId K fns = interfaceId K fns' := by
  rw [interfaceId_eq, interfaceId_eq]
  exact xorAll_perm K (h.map _)

private theorem same {K : Hash} {fns : List TraitFn} {sigs : List String}
    (h : (macroSigs fns).Perm (sigs.map String.toList)) : interfaceId K fns = Spec.Interfaces.interfaceId K sigs := by
  rw [interfaceId_eq, xorAll_perm K h, xorAll_spec]

private theorem same' {K : Hash} {fns : List (String × List SolType)} {sigs : List String}
    (h : (manualSigs fns).Perm (sigs.map String.toList)) : manualId K fns = Spec.Interfaces.interfaceId K sigs := by
  rw [manualId_eq, xorAll_perm K h, xorAll_spec]

set_option maxRecDepth 100000

/-- **C87** Every interface id of the library is, whatever the hash function, the ERC-165 id of the interface as the
standards (or the Solidity library) write it — except `IAccessControl`, see `C87_access_control_differs`. -/
theorem C87_standard_ids (K : Hash) :
    interfaceId K IErc165 = Spec.Interfaces.interfaceId K Spec.Interfaces.erc165 ∧
    interfaceId K IErc20 = Spec.Interfaces.interfaceId K Spec.Interfaces.erc20 ∧
    interfaceId K IErc20Metadata = Spec.Interfaces.interfaceId K Spec.Interfaces.erc20Metadata ∧
    interfaceId K IErc721 = Spec.Interfaces.interfaceId K Spec.Interfaces.erc721 ∧
    manualId K IErc721Metadata = Spec.Interfaces.interfaceId K Spec.Interfaces.erc721Metadata ∧
    interfaceId K IErc721Enumerable = Spec.Interfaces.interfaceId K Spec.Interfaces.erc721Enumerable ∧
    interfaceId K IErc1155 = Spec.Interfaces.interfaceId K Spec.Interfaces.erc1155 ∧
    interfaceId K IErc1155MetadataUri = Spec.Interfaces.interfaceId K Spec.Interfaces.erc1155MetadataUri ∧
    interfaceId K IErc1155Supply = Spec.Interfaces.interfaceId K Spec.Interfaces.erc1155Supply ∧
    interfaceId K IErc2981 = Spec.Interfaces.interfaceId K Spec.Interfaces.erc2981 ∧
    manualId K IErc3156FlashLender = Spec.Interfaces.interfaceId K Spec.Interfaces.erc3156Lender ∧
    manualId K IErc4626 = Spec.Interfaces.interfaceId K Spec.Interfaces.erc4626 ∧
    manualId K IErc20Wrapper = Spec.Interfaces.interfaceId K Spec.Interfaces.erc20Wrapper ∧
    interfaceId K ISafeErc20 = Spec.Interfaces.interfaceId K Spec.Interfaces.safeErc20 ∧
    interfaceId K IOwnable = Spec.Interfaces.interfaceId K Spec.Interfaces.ownable ∧
    interfaceId K IOwnable2Step = Spec.Interfaces.interfaceId K Spec.Interfaces.ownable2Step ∧
    interfaceId K IVestingWallet = Spec.Interfaces.interfaceId K Spec.Interfaces.vestingWallet :=
  ⟨same (by decide +kernel), same (by decide +kernel), same (by decide +kernel), same (by decide +kernel),
   same' (by decide +kernel), same (by decide +kernel), same (by decide +kernel), same (by decide +kernel),
   same (by decide +kernel), same (by decide +kernel), same' (by decide +kernel), same' (by decide +kernel),
   same' (by decide +kernel), same (by decide +kernel), same (by decide +kernel), same (by decide +kernel),
   same (by decide +kernel)⟩

/-- **C87** `IAccessControl` has one function more than the standard interface, `onlyRole(bytes32)`, so for every hash
function its id is the standard one xor that selector, and equals the standard one only if that selector is zero. -/
theorem C87_access_control_differs (K : Hash) :
    interfaceId K IAccessControl =
      Spec.Interfaces.interfaceId K ("onlyRole(bytes32)" :: Spec.Interfaces.accessControl) ∧
    (interfaceId K IAccessControl = Spec.Interfaces.interfaceId K Spec.Interfaces.accessControl ↔
      Spec.Interfaces.selector K "onlyRole(bytes32)" = 0#32) := by
  have h : interfaceId K IAccessControl =
      Spec.Interfaces.interfaceId K ("onlyRole(bytes32)" :: Spec.Interfaces.accessControl) :=
    same (by decide +kernel)
  refine ⟨h, ?_⟩
  rw [h, Spec.Interfaces.interfaceId]
  constructor
  · intro e
    have := congrArg (· ^^^ Spec.Interfaces.interfaceId K Spec.Interfaces.accessControl) e
    simpa [BitVec.xor_assoc] using this
  · intro e
    rw [e, BitVec.zero_xor]

end Verif.Props.Interfaces
