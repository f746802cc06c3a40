import Verif.Spec.PermitDeployed
import Verif.Proofs.GatesDeployed
/-! # Lemmas: the deployed `examples/erc20-permit` -/

namespace Verif.Proofs.NoncesWords
open Verif Verif.Storage Verif.Nonces Verif.NoncesWords Verif.Spec.StoragePrograms
open Verif.Proofs.OnWords
open Verif.Proofs.Deployed (Table)
open Verif.Proofs.Erc721Words (Sim)

/-- The nonces a table stands for. -/
def view (root : List Step) (c : Table) (_ : List Empty) : Nonces.State := ⟨fun a => c (nonce root a)⟩

variable {w : List Step → Nat} {root : List Step}

theorem nonce_inj {a b : Address} (h : nonce root a = nonce root b) : a = b := by
  have h := List.append_cancel_left h
  injection h with _ h
  injection h with h _
  injection h with h
  exact Props.StoragePrograms.key_inj h

theorem view_upd (c : Table) (log : List Empty) (a : Address) (v : U256) :
    view root (upd c (nonce root a) v) log = ⟨upd (view root c log).nonces a v⟩ := by
  unfold view
  congr 1
  funext b
  unfold upd
  by_cases h : b = a
  · subst h; simp
  · rw [if_neg h, if_neg fun e => h (nonce_inj e)]

theorem sim_use (hw : ∀ a, w (nonce root a) = 32) (a : Address) :
    Sim w (view root) (NoncesWords.useNonce root a) fun s => Nonces.useNonce s a := by
  intro c log
  unfold Verif.NoncesWords.useNonce Nonces.useNonce
  show _ = (onCells w (match checkedAdd (c (nonce root a)) 1#256 with
    | some m' => Prog.set (nonce root a) m' (.ret (c (nonce root a)))
    | none => .fail Nonces.Err.panic : NoncesWords.Code U256) c).map _
  show (orPanic Nonces.Err.panic (checkedAdd (c (nonce root a)) 1#256) >>= _) = _
  cases checkedAdd (c (nonce root a)) 1#256 with
  | none => rfl
  | some m =>
    show Except.ok (_, _) = Except.ok (_, view root (upd c (nonce root a) (m &&& mask (w (nonce root a)))) _)
    rw [view_upd, hw, Proofs.Erc721Words.mask32]
    rfl

theorem uses_use {C : List Step → Prop} {a : Address} (h : C (nonce root a)) : Uses C (NoncesWords.useNonce root a) :=
  ⟨h, fun _ => ⟨h, fun m => by
    dsimp only
    cases checkedAdd m 1#256 with
    | none => exact trivial
    | some m' => exact ⟨h, trivial⟩⟩⟩

end Verif.Proofs.NoncesWords

namespace Verif.Proofs.PermitDeployed
open Verif Verif.Storage Verif.PermitDeployed Verif.Spec.PermitDeployed Verif.Spec.StoragePrograms
open Verif.OnWords (token inner)
open Verif.Spec.OnWords (Apart)
open Verif.Proofs.OnWords
open Verif.Props.StoragePrograms (Wide wide)
open Verif.Proofs.Deployed (Table UsedBy used_bind used_of_uses uses_mono uses_lift)
open Verif.Proofs.Erc721Words (Sim unit look)
open Verif.Abi (Val Decoder Outcome)
open Verif.Spec.Deployed (answer)
open Verif.Spec.Contracts (Raw after)
open Verif.Contracts (Timed PermitToken permitStep)

/-- The state a table stands for. -/
abbrev view := both PermitToken.mk tokenView (NoncesWords.view counters)

theorem frame {c c' : Table} (h : ∀ p, ¬ Under token p → c' p = c p) (log : List Empty) :
    NoncesWords.view counters c' log = NoncesWords.view counters c log := by
  unfold NoncesWords.view
  congr 1
  funext a
  exact h _ (by simp [Under, token, NoncesWords.nonce, counters])

theorem frame' {c c' : Table} (h : ∀ p, ¬ Under counters p → c' p = c p) (log : List Erc20.Event) : tokenView c' log = tokenView c log :=
  tokenView_frame (fun q => by simp [token, counters]) h log

/-- The sizes of the cells. -/
structure Sizes (w : List Step → Nat) : Prop where
  token : Wide w token
  nonce : ∀ a, w (NoncesWords.nonce counters a) = 32

section
variable {w : List Step → Nat}

theorem sim_inner (hw : Sizes w) (E : Permit.Env) (now : U64) (caller : Address) (c : Erc20.Call) :
    Sim w view (inner .erc20 caller c) (unit fun s => permitStep E now s (.token caller c)) :=
  sim_left (sim_token hw.token caller c) (under_token caller c) (fun _ _ h => frame h) fun a b => by
    unfold unit permitStep Permit.exec Permit.liftErc20
    dsimp only
    cases Erc20.exec a (caller, c) <;> rfl

theorem sim_approve (hw : Sizes w) (o p : Address) (v : U256) :
    Sim w view ((Erc20Words.approveInternal token o p v true).lift Permit.Err.erc20 .inl)
      (unit fun s => (Permit.liftErc20 (Erc20.approveInternal s.erc20 o p v true)).map fun t => { s with erc20 := t }) := by
  have h : Sim w tokenView (Erc20Words.approveInternal token o p v true) (unit fun s => Erc20.approveInternal s o p v true) := by
    intro t log
    have h1 := Props.StoragePrograms.sim_approve hw.token o p v true t log
    revert h1
    unfold unit
    dsimp only
    cases onCells w (Erc20Words.approveInternal token o p v true) t with
    | error e => intro h1; rw [h1]; rfl
    | ok r => intro h1; rw [h1]; rfl
  refine sim_left h (uses_mono (fun _ => accounts_under) _
    (Props.StoragePrograms.uses_approve (S := [o, p]) (by simp) (by simp) v true)) (fun _ _ h => frame h) fun a b => ?_
  unfold unit Permit.liftErc20
  dsimp only
  cases Erc20.approveInternal a o p v true <;> rfl

theorem sim_nonce (hw : Sizes w) (o : Address) :
    Sim w view ((NoncesWords.useNonce counters o).lift (fun _ => Permit.Err.panic) .inr)
      fun s => (Permit.liftNonce (Nonces.useNonce s.nonces o)).map fun r => (r.1, { s with nonces := r.2 }) := by
  refine sim_right (NoncesWords.sim_use hw.nonce o) (NoncesWords.uses_use (C := Under counters) ⟨_, rfl⟩) (fun _ _ h => frame' h) fun a b => ?_
  unfold Permit.liftNonce
  dsimp only
  cases Nonces.useNonce b o <;> rfl

theorem sim_permit (hw : Sizes w) (E : Permit.Env) (now : U64) (o p : Address) (val d : U256) (v : U8) (r x : B256) :
    Sim w view (permit E now o p val d v r x) (unit fun s => permitStep E now s (.permit o p val d v r x)) := by
  have h := Proofs.Erc721Words.sim_ite (P := d < now.setWidth 256) (Proofs.Erc721Words.sim_fail (w := w) (view := view) (α := Unit) (Permit.Err.expiredSignature d))
    (Proofs.Erc721Words.sim_bind (sim_nonce hw o) fun nonce => show Sim w view (match Ecdsa.recover E.P
        (Eip712.hashTypedData E.K E.domain (E.K (Permit.encodeStruct E.K o p val nonce d))) v r x with
      | .error e => .fail (.ecdsa e)
      | .ok signer => if signer ≠ o then .fail (.invalidSigner signer o)
        else (Erc20Words.approveInternal token o p val true).lift .erc20 .inl)
      (fun s => match Ecdsa.recover E.P (Eip712.hashTypedData E.K E.domain (E.K (Permit.encodeStruct E.K o p val nonce d))) v r x with
      | .error e => .error (.ecdsa e)
      | .ok signer => if signer ≠ o then .error (.invalidSigner signer o)
        else (unit fun s => (Permit.liftErc20 (Erc20.approveInternal s.erc20 o p val true)).map fun t => { s with erc20 := t }) s) from by
      cases Ecdsa.recover E.P (Eip712.hashTypedData E.K E.domain (E.K (Permit.encodeStruct E.K o p val nonce d))) v r x with
      | error e => exact Proofs.Erc721Words.sim_fail _
      | ok signer => exact Proofs.Erc721Words.sim_ite (Proofs.Erc721Words.sim_fail _) (sim_approve hw o p val))
  refine sim_congr h fun s => ?_
  unfold unit permitStep Permit.exec Permit.permit
  dsimp only
  by_cases hd : d < now.setWidth 256
  · simp only [if_pos hd]; rfl
  · simp only [if_neg hd]
    cases Nonces.useNonce s.nonces o with
    | error e => rfl
    | ok n =>
      obtain ⟨n, ns⟩ := n
      simp only [Permit.liftNonce, Except.map, bind, Except.bind, pure, Except.pure]
      cases Ecdsa.recover E.P (Eip712.hashTypedData E.K E.domain (E.K (Permit.encodeStruct E.K o p val n d))) v r x with
      | error e => rfl
      | ok signer =>
        simp only [Permit.liftEcdsa]
        by_cases hs : signer ≠ o
        · simp only [if_pos hs]; rfl
        · simp only [if_neg hs]
          cases Erc20.approveInternal s.erc20 o p val true <;> rfl

theorem uses_inner {S : List Address} {caller : Address} {c : Erc20.Call} (h : ∀ a ∈ named (caller, c), a ∈ S) :
    Uses (Cells S) (inner (G := Empty) Permit.Err.erc20 caller c) :=
  uses_lift _ (uses_mono (fun _ => .inl) _ (Props.StoragePrograms.uses_code (op := (caller, c)) h))

theorem uses_permit {S : List Address} (E : Permit.Env) (now : U64) {o p : Address} (ho : o ∈ S) (hp : p ∈ S) (val d : U256) (v : U8)
    (r x : B256) : Uses (Cells S) (permit E now o p val d v r x) := by
  unfold permit
  refine Props.StoragePrograms.uses_ite trivial (Props.StoragePrograms.uses_bind
    (uses_lift _ (NoncesWords.uses_use (.inr ⟨o, ho, rfl⟩))) fun n => ?_)
  cases Ecdsa.recover E.P (Eip712.hashTypedData E.K E.domain (E.K (Permit.encodeStruct E.K o p val n d))) v r x with
  | error e => exact trivial
  | ok signer =>
    exact Props.StoragePrograms.uses_ite trivial
      (uses_lift _ (uses_mono (fun _ => .inl) _ (Props.StoragePrograms.uses_approve ho hp val true)))

theorem fits (hw : Sizes w) {S : List Address} {c : Table} {log : List Ev} (E : Permit.Env) {env : Timed} (hc : env.caller ∈ S) (t f : String)
    {args : List Val} (ha : ∀ a, Val.address a ∈ args → a ∈ S) :
    Fits w (Cells S) view (fun _ => True) c log (program E env t f args) (Contracts.erc20Permit E env t f args (view c log)) := by
  have r : ∀ {call : Erc20.Call} (_ : ∀ a ∈ named (env.caller, call), a ∈ S) (r : List Val), Fits w (Cells S) view (fun _ => True) c log
      (OnWords.finish E.K Revert.permit (fun _ => r) (inner .erc20 env.caller call))
      (Entry.finish E.K Revert.permit r (permitStep E env.now (view c log) (.token env.caller call))) := fun hn r =>
    fits_call E.K _ (sim_inner hw E env.now env.caller _) (used_of_uses _ _ (uses_inner hn)) (fun _ _ => trivial) r
  have v := fits_views (w := w) (C := Cells S) (S := S) (Good := fun _ => True) (mk := PermitToken.mk) (vg := NoncesWords.view counters) (c := c)
    (log := log) trivial (fun _ => .inl) ha
  unfold program Contracts.erc20Permit
  refine fits_table (.cons ⟨rfl, rfl, ?_⟩ (.cons ⟨rfl, rfl, ?_⟩ (.cons ⟨rfl, rfl, ?_⟩ (.cons ⟨rfl, rfl, ?_⟩ (.cons ⟨rfl, rfl, ?_⟩
    (.cons ⟨rfl, rfl, ?_⟩ (.cons ⟨rfl, rfl, ?_⟩ v)))))))
  · takes r (by simp_all [named]) _
  · dsimp only
    split
    · exact fits_call E.K _ (sim_permit hw E env.now _ _ _ _ _ _ _)
        (used_of_uses _ _ (uses_permit E env.now (ha _ (by simp)) (ha _ (by simp)) _ _ _ _ _)) (fun _ _ => trivial) _
    · next h =>
      split
      · exact absurd rfl (h _ _ _ _ _ _ _)
      · exact fits_fail
  · takes r (by simp_all [named]) _
  · takes r (by simp_all [named]) _
  · takes r (by simp_all [named]) _
  · takes fits_get trivial (.inr ⟨_, ha _ (by simp), rfl⟩) (fun v => [.uint256 v])
  · takes (⟨trivial, rfl, (congrArg (view c) (List.append_nil log)).symm, trivial⟩ : Fits w (Cells S) view (fun _ => True) c log
      (.ret [.bytes32 (Permit.domainSeparator E)]) (.ok (view c log, [.bytes32 (Permit.domainSeparator E)])))

end

theorem sizes (K : Hash) : Sizes (widthAt K erc20PermitExample) := ⟨wide (b := none) (d := 0) rfl, fun _ => rfl⟩

/-- The contract with independent mappings. -/
def model (D : Decoder) (E : Permit.Env) (env : Timed) (s : PermitToken) (value : U256) (input : Bytes) : Outcome PermitToken :=
  Abi.entry E.K D Router.erc20PermitExample (Contracts.erc20Permit E env) s value input

section
variable {E : Permit.Env} {n : Nat} {S : List Address}

/-- The words and the state agree. -/
abbrev Agrees (K : Hash) (S : List Address) := Inv K erc20PermitExample (Cells S) view (fun _ => True)

theorem inv_step (h : Apart E.K n erc20PermitExample (Cells S)) (D : Decoder) {w : OnWords.State Ev} {s : PermitToken} (hi : Agrees E.K S w s)
    {tx : Raw Timed} (hx : Within E.K D S tx) :
    answer (entry D E tx.env w tx.value tx.input) = answer (model D E tx.env s tx.value tx.input) ∧
    Agrees E.K S ((entry D E tx.env w tx.value tx.input).after w) ((model D E tx.env s tx.value tx.input).after s) :=
  step (by decide) h D Router.erc20PermitExample hi tx.value tx.input fun u f args hr hd _ _ _ =>
    fits (sizes E.K) E hx.sender u f.rustName (hx.addresses args ⟨u, f, hr, hd⟩)

theorem inv_run (h : Apart E.K n erc20PermitExample (Cells S)) (D : Decoder) (txs : List (Raw Timed)) {w : OnWords.State Ev} {s : PermitToken}
    (hi : Agrees E.K S w s) (hx : ∀ tx ∈ txs, Within E.K D S tx) :
    Agrees E.K S (after (entry D E) w txs) (after (model D E) s txs) :=
  steps (run := entry D E) (run' := model D E) (I := Agrees E.K S) (ok := Within E.K D S)
    (fun _ _ _ hi hx => (inv_step h D hi hx).2) txs hi hx

theorem deploys (K : Hash) : deploy K = some { words := Constructors.fresh, log := [] } := rfl

theorem inv_deploy (K : Hash) {w : OnWords.State Ev} (hd : deploy K = some w) : Agrees K S w ⟨Erc20.init, Nonces.init⟩ := by
  rw [deploys] at hd
  cases hd
  exact ⟨trivial, fun _ => 0#256, fresh_agree K _ _, rfl⟩

end
end Verif.Proofs.PermitDeployed
