import Verif.Model.Erc20Permit
/-! # Specification vocabulary for permits -/

namespace Verif.Spec.Permit
open Verif.Permit

/-- The EIP-712 digest of the ERC-2612 message `(owner, spender, value, nonce, deadline)`, written out
from the standards: `keccak(0x1901 ‖ separator ‖ keccak(typehash ‖ fields))`. -/
def digest (E : Env) (owner spender : Address) (value nonce deadline : U256) : B256 :=
  E.K ([0x19#8, 0x01#8] ++ be32 (E.K
      (be32 (E.K (ascii "EIP712Domain(string name,string version,uint256 chainId,address verifyingContract)"))
        ++ be32 (E.K E.domain.name) ++ be32 (E.K E.domain.version) ++ be32 E.domain.chainId
        ++ abiAddress E.domain.contract))
    ++ be32 (E.K
      (be32 (E.K (ascii "Permit(address owner,address spender,uint256 value,uint256 nonce,uint256 deadline)"))
        ++ abiAddress owner ++ abiAddress spender ++ be32 value ++ be32 nonce ++ be32 deadline)))

/-- The message bytes that are hashed into the struct hash. -/
def message (E : Env) (owner spender : Address) (value nonce deadline : U256) : Bytes :=
  be32 (E.K (ascii "Permit(address owner,address spender,uint256 value,uint256 nonce,uint256 deadline)"))
    ++ abiAddress owner ++ abiAddress spender ++ be32 value ++ be32 nonce ++ be32 deadline

/-- The nonce of `owner`. -/
def nonce (st : State) (owner : Address) : Nat := (Nonces.nonceOf st.nonces owner).toNat

end Verif.Spec.Permit
