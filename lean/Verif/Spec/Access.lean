import Verif.Model.Access
/-! # Specifications for the access-control modules -/

namespace Verif.Spec.AccessControl
open Verif.AccessControl

/-- Membership of `account` in `role` as an indexer reconstructs it: the last grant/revoke event of
this role and account decides; initially nobody has a role. -/
def memberByLog (role : Role) (account : Address) : List Event → Bool :=
  List.foldl (fun b e => match e with
    | .roleGranted r a _ => if r = role ∧ a = account then true else b
    | .roleRevoked r a _ => if r = role ∧ a = account then false else b
    | .roleAdminChanged _ _ _ => b) false

/-- Admin role of `role` as an indexer reconstructs it. -/
def adminByLog (role : Role) : List Event → Role :=
  List.foldl (fun b e => match e with
    | .roleAdminChanged r _ n => if r = role then n else b
    | _ => b) 0#256

/-- An event log in which each grant is of a role not held at that point and each revocation of a
role held at that point (no redundant events). -/
def NoRedundant (log : List Event) : Prop :=
  ∀ pre post e, log = pre ++ e :: post → match e with
    | .roleGranted r a _ => memberByLog r a pre = false
    | .roleRevoked r a _ => memberByLog r a pre = true
    | .roleAdminChanged r p _ => adminByLog r pre = p

end Verif.Spec.AccessControl

namespace Verif.Spec.Ownable
open Verif.Ownable

/-- The owner as an indexer reconstructs it from `OwnershipTransferred` events. -/
def ownerByLog (initial : Address) : List Event → Address :=
  List.foldl (fun o e => match e with
    | .transferred _ n => n
    | .started _ _ => o) initial

end Verif.Spec.Ownable
