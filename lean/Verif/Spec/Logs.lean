import Verif.Model.Logs
import Verif.Spec.Revert
/-!
# Reading logs

What someone does who knows nothing but the raw logs of a contract and the published event hashes: topics are 256-bit
words, data are bytes.
-/
namespace Verif.Spec.Logs
open Verif Verif.Logs
open Verif.Spec.Revert (addr)

/-- The first topics the standards give for their events, and those of the Solidity library. -/
def publishedTopics : List (String × BitVec 256) :=
  [("Transfer(address,address,uint256)", 0xddf252ad1be2c89b69c2b068fc378daa952ba7f163c4a11628f55a4df523b3ef#256),
   ("Approval(address,address,uint256)", 0x8c5be1e5ebec7d5bd14f71427d1e84f3dd0314c0f7b2291e5b200ac8c7c3b925#256),
   ("ApprovalForAll(address,address,bool)", 0x17307eab39ab6107e8899845ad3d59bd9653f200f220920489ca2b5937696c31#256),
   ("TransferSingle(address,address,address,uint256,uint256)",
     0xc3d58168c5ae7397731d063d5bbf3d657854427343f4c083240f7aacaa2d0f62#256),
   ("TransferBatch(address,address,address,uint256[],uint256[])",
     0x4a39dc06d4c0dbc64b70af90fd698a233a518aa5d07e595d983b8c0526c8f7fb#256),
   ("URI(string,uint256)", 0x6bb7ff708619ba0610cba295a58592e0451dee2622938c8755667688daf3529b#256),
   ("MetadataUpdate(uint256)", 0xf8e1a15aba9398e019f0b49df1a4fde98ee17ae345cb5f6b5e2c27f5033e8ce7#256),
   ("BatchMetadataUpdate(uint256,uint256)", 0x6bd5c950a8d8df17f772f5af37cb3655737899cbf903264b9795592da439661c#256),
   ("ConsecutiveTransfer(uint256,uint256,address,address)",
     0xdeaa91b6123d068f5821d0fb0678463d1a8a6079fe8af5de3ce5e896dcf9133d#256),
   ("OwnershipTransferred(address,address)", 0x8be0079c531659141344cd1fd0a4f28419497f9722a3daafe3b4186f6b6457e0#256),
   ("OwnershipTransferStarted(address,address)", 0x38d16b8cac22d99fc7c124b9cd0de2d3fa1faef420bfe791d8c362d765e22700#256),
   ("RoleAdminChanged(bytes32,bytes32,bytes32)", 0xbd79b86ffe0ab8e8776151514217cd7cacd52c909f66475c3af44e129f0b00ff#256),
   ("RoleGranted(bytes32,address,address)", 0x2f8788117e7eff1d82e926ec794901d17c78024a50270940304540a733656f0d#256),
   ("RoleRevoked(bytes32,address,address)", 0xf6391f5c32d9c69d2a47ea670b442974b53935d1edc7fd64eb21e047a839171b#256),
   ("Paused(address)", 0x62e78cea01bee320cd4e420270b5ea74000d11b0c9f74754ebdbfc544b05a258#256),
   ("Unpaused(address)", 0x5db9ee0a495bf2e6ff9c91a7834c1ba4fdd244a5e8aa4e537bd38aeae4b073aa#256),
   ("Deposit(address,address,uint256,uint256)", 0xdcbc1c05240f31ff3ad067ef1ee35ce4997762752e3a095284754544f4c709d7#256),
   ("Withdraw(address,address,address,uint256,uint256)",
     0xfbde797d201c681b91056529119e0b02407c7bb96a4a2c75c01fc9667232c8db#256),
   ("EtherReleased(uint256)", 0xda9d4e5f101b8b9b1c5b76d0c5a9f7923571acfc02376aa076b75a8c080c956b#256),
   ("ERC20Released(address,uint256)", 0xc0e523490dd523c33b1878c9eb14ff46991e3f5b2cd33710918618f2a39cba1b#256)]

/-- The first topic of the event with this signature, for a given hash function. -/
def eventHash (K : List (BitVec 8) → BitVec 256) (sig : String) : BitVec 256 := K (Spec.Keccak.ascii sig)

/-- The number that bytes spell, most significant first. -/
def number (bytes : List (BitVec 8)) : Nat := bytes.foldl (fun n b => 256 * n + b.toNat) 0

/-- Balance of an account from the raw logs of an ERC-20 token: what `Transfer` logs say came in, less what they say
went out. -/
def tokenBalance (logs : List Log) (account : BitVec 160) : Int :=
  (logs.map fun l => match l.topics with
    | [t, src, dst] =>
      if t = 0xddf252ad1be2c89b69c2b068fc378daa952ba7f163c4a11628f55a4df523b3ef#256 then
        (if dst = addr account then (number l.data : Int) else 0) - (if src = addr account then (number l.data : Int) else 0)
      else 0
    | _ => 0).sum

/-- Owner of a token from the raw logs of an ERC-721 token: the receiver named by the last `Transfer` log of the id, the
zero address meaning nobody. -/
def tokenOwner (logs : List Log) (id : BitVec 256) : Option (BitVec 160) :=
  logs.foldl (fun o l => match l.topics with
    | [t, _, dst, i] =>
      if t = 0xddf252ad1be2c89b69c2b068fc378daa952ba7f163c4a11628f55a4df523b3ef#256 ∧ i = id then
        (if dst = 0#256 then none else some (BitVec.ofNat 160 dst.toNat))
      else o
    | _ => o) none

/-- Membership of a role from the raw logs: the last grant or revocation counts. -/
def roleMember (logs : List Log) (role : BitVec 256) (account : BitVec 160) : Bool :=
  logs.foldl (fun b l => match l.topics with
    | [t, r, a, _] =>
      if r = role ∧ a = addr account then
        (if t = 0x2f8788117e7eff1d82e926ec794901d17c78024a50270940304540a733656f0d#256 then true
         else if t = 0xf6391f5c32d9c69d2a47ea670b442974b53935d1edc7fd64eb21e047a839171b#256 then false
         else b)
      else b
    | _ => b) false

/-- The event has one of the declared names with the declared parameters. -/
def Declared (e : SolEvent) : Prop := (e.name, e.params.map fun p => (p.indexed, p.val.type)) ∈ declarations

/-- A parameter whose length fits its 256-bit length field. -/
def FitsVal : Val → Prop
  | .uints l => l.length < 2 ^ 256
  | .string s => (utf8 s).length < 2 ^ 256
  | _ => True

/-- All parameters fit. -/
def Fits (e : SolEvent) : Prop := ∀ p ∈ e.params, FitsVal p.val

end Verif.Spec.Logs
