import Verif.Model.GatesDeployed
/-!
# Model of a deployed contract: `examples/erc20-permit`

A token with allowances by signature, with nothing left out between the transaction and the storage: functions as programs on storage
cells, in the order in which the code reads and writes them, the router and the decoder in front, and the words of the storage
behind.  Keccak, `ecrecover` and the domain are parameters, as in `Verif.Model.Erc20Permit`.
-/
namespace Verif.NoncesWords
open Verif Verif.Storage Verif.Nonces

/-- `Nonces` on storage (`contracts/src/utils/nonces.rs` 51-84); it has no events. -/
abbrev Code := Prog Err Empty

variable (root : List Step)

/-- `self.nonces`, `contracts/src/utils/nonces.rs` 48, at the key of an address. -/
def nonce (a : Address) : List Step := root ++ [.field "nonces", .key (a.setWidth 256)]

/-- `use_nonce`, `contracts/src/utils/nonces.rs` 76-84: it is read, and read again by `add_assign_checked`. -/
def useNonce (a : Address) : Code U256 :=
  .get (nonce root a) fun n => .get (nonce root a) fun m =>
  match checkedAdd m 1#256 with
  | some m' => .set (nonce root a) m' (.ret n)
  | none => .fail .panic

end Verif.NoncesWords

namespace Verif.PermitDeployed
open Verif Verif.Storage Verif.OnWords
open Verif.Abi (Val Decoder Outcome)
open Verif.Contracts (Timed)

/-- Events: of the token (`contracts/src/token/erc20/mod.rs` 30-47); the nonces have none. -/
abbrev Ev := Erc20.Event ⊕ Empty

/-- The field `nonces`, `examples/erc20-permit/src/lib.rs` 21-22. -/
def counters : List Step := [.field "nonces"]

/-- `permit`, `contracts/src/token/erc20/extensions/permit.rs` 138-174. -/
def permit (E : Permit.Env) (now : U64) (owner spender : Address) (value deadline : U256) (v : U8) (r s : B256) : Prog Permit.Err Ev Unit :=
  if deadline < now.setWidth 256 then .fail (.expiredSignature deadline)
  else ((NoncesWords.useNonce counters owner).lift (fun _ => .panic) .inr).bind fun nonce =>
    match Ecdsa.recover E.P (Eip712.hashTypedData E.K E.domain (E.K (Permit.encodeStruct E.K owner spender value nonce deadline))) v r s with
    | .error e => .fail (.ecdsa e)
    | .ok signer =>
      if signer ≠ owner then .fail (.invalidSigner signer owner)
      else (Erc20Words.approveInternal token owner spender value true).lift .erc20 .inl

/-- The functions of `examples/erc20-permit/src/lib.rs` 34-70 with `Erc20` (`contracts/src/token/erc20/mod.rs` 270-316), `Nonces`
(`contracts/src/utils/nonces.rs` 51-63) and `Erc20Permit` (`contracts/src/token/erc20/extensions/permit.rs` 89-102). -/
def program (E : Permit.Env) (env : Timed) (t f : String) (args : List Val) : Prog (Option Bytes) Ev (List Val) :=
  let go (r : List Val) (m : Prog Permit.Err Ev Unit) := finish E.K Revert.permit (fun _ => r) m
  dispatch t f args (
  [("Erc20PermitExample", "mint", fun
      | [.address a, .uint256 v] => go [] (inner .erc20 env.caller (.mint a v))
      | _ => .fail none),
   ("Erc20PermitExample", "permit", fun
      | [.address o, .address p, .uint256 v, .uint256 d, .uint8 y, .bytes32 r, .bytes32 x] => go [] (permit E env.now o p v d y r x)
      | _ => .fail none),
   ("Erc20", "transfer", fun
      | [.address dst, .uint256 v] => go [.bool true] (inner .erc20 env.caller (.transfer dst v))
      | _ => .fail none),
   ("Erc20", "approve", fun
      | [.address p, .uint256 v] => go [.bool true] (inner .erc20 env.caller (.approve p v))
      | _ => .fail none),
   ("Erc20", "transfer_from", fun
      | [.address src, .address dst, .uint256 v] => go [.bool true] (inner .erc20 env.caller (.transferFrom src dst v))
      | _ => .fail none),
   ("Nonces", "nonces", fun
      | [.address a] => .get (NoncesWords.nonce counters a) fun v => .ret [.uint256 v]
      | _ => .fail none),
   ("Erc20Permit", "domain_separator", fun | [] => .ret [.bytes32 (Permit.domainSeparator E)] | _ => .fail none)] ++
  erc20Views)

/-- `#[entrypoint]`, `examples/erc20-permit/src/lib.rs` 16-70. -/
def entry (D : Decoder) (E : Permit.Env) (env : Timed) (w : State Ev) (value : U256) (input : Bytes) : Outcome (State Ev) :=
  Abi.entry E.K D Router.erc20PermitExample (onWords E.K erc20PermitExample (program E env)) w value input

/-- Deployment: the constructor runs on fresh storage (`examples/erc20-permit/src/constructor.sol` 11). -/
def deploy (K : Hash) : Option (State Ev) :=
  Constructors.permitInit.bind fun ws =>
  (Constructors.assign K Constructors.permitSol ws Constructors.fresh).map fun st => { words := st, log := [] }

end Verif.PermitDeployed
