import Verif.Proofs.PermitDeployed
import Verif.Props.GatesDeployed
/-!
# C117: `examples/erc20-permit` as deployed: calldata, storage words

Nothing of the other models is left in the statements but the contract on words (`Verif.Model.PermitDeployed`), except that
`C117_answers` compares it with the contract of C103.  `S` are the accounts that take part.  Of them it is asked that the hash values of
their storage cells do not coincide (`Apart`), as in C98, C104 and C114 to C116.
-/
namespace Verif.Props.PermitDeployed
open Verif Verif.Storage Verif.PermitDeployed Verif.Spec.PermitDeployed Verif.Proofs.PermitDeployed Verif.Props.OnWords
open Verif.Abi (Val Decoder Outcome)
open Verif.Spec.Keccak (keccak256)
open Verif.Spec.OnWords (Apart)
open Verif.Spec.Contracts (Raw after message values Says)
open Verif.Contracts (Timed PermitToken)
open Verif.Props.Contracts.PermitContract (abi mem)
open Verif.OnWords (State)

theorem after_snoc {σ Env : Type} (run : Env → σ → U256 → Bytes → Outcome σ) (s : σ) (txs : List (Raw Env)) (tx : Raw Env) :
    after run s (txs ++ [tx]) = (run tx.env (after run s txs) tx.value tx.input).after (after run s txs) := List.foldl_append

/-- What an account gets to know that asks a question: the bytes of the answer, `none` if it is refused. -/
abbrev ask (D : Decoder) (P : Ecdsa.Precompile) (dom : Eip712.Domain) := Spec.Contracts.answer (entry D ⟨keccak256, P, dom⟩)

/-- The transaction is about accounts of `S`. -/
abbrev About (D : Decoder) (S : List Address) (tx : Raw Timed) : Prop := Within keccak256 D S tx

/-- **C117** Deployment succeeds. -/
theorem C117_deploy (K : Hash) : ∃ w, deploy K = some w := ⟨_, deploys K⟩

/-- **C117** Bytes in, bytes out, with nothing between but words of storage: after any list of transactions, a transaction is
answered with the same bytes as by the contract with independent mappings that C103 is about, and the events are the same. -/
theorem C117_answers {E : Permit.Env} {n : Nat} {S : List Address} (h : Apart E.K n erc20PermitExample (Cells S)) {w : State Ev}
    (hd : deploy E.K = some w) (D : Decoder) (txs : List (Raw Timed)) (tx : Raw Timed) (hx : ∀ tx' ∈ txs ++ [tx], Within E.K D S tx') :
    let run env s value input := Abi.entry E.K D Router.erc20PermitExample (Contracts.erc20Permit E env) s value input
    let s := after run ⟨Erc20.init, Nonces.init⟩ txs
    let w' := after (entry D E) w txs
    Spec.Deployed.answer (entry D E tx.env w' tx.value tx.input) = Spec.Deployed.answer (run tx.env s tx.value tx.input) ∧
    w'.log.filterMap Sum.getLeft? = s.erc20.log := by
  intro run s w'
  have hi := inv_run h D txs (inv_deploy E.K hd) fun tx' h => hx tx' (List.mem_append_left _ h)
  refine ⟨(inv_step h D hi (hx tx (List.mem_append_right _ (by simp)))).1, ?_⟩
  obtain ⟨_, c, _, hv⟩ := hi
  rw [show s = _ from hv.symm]
  rfl

section
variable {n : Nat} {S : List Address} {D : Decoder} {P : Ecdsa.Precompile} {dom : Eip712.Domain}

/-- A well-formed call is about its sender and its arguments. -/
theorem within {env : Timed} {value : U256} {sg t : String} {f : Router.Fn} {args : List Val}
    (hs : sg ∈ Contracts.PermitContract.spec.abi.map Prod.fst)
    (hr : Props.Router.routeSig Contracts.PermitContract.spec.contract sg = some (t, f)) (ht : args.map Val.type = Abi.flat f.args)
    (hl : (message sg args).length < 2 ^ 256) (hc : env.caller ∈ S) (ha : ∀ a, Val.address a ∈ args → a ∈ S) :
    About D S ⟨env, value, message sg args⟩ :=
  ⟨hc, fun args' h => by rw [arguments_message mem hs hr ht hl h]; exact ha⟩

set_option maxRecDepth 100000 in
/-- **C117** A call of a function that changes the state is about its sender and its arguments. -/
theorem C117_call_within {env : Timed} (op : Contracts.PermitContract.Op) (value : U256)
    (hc : env.caller ∈ S) (ha : ∀ a, Val.address a ∈ (abi op).2 → a ∈ S) : About D S ⟨env, value, message (abi op).1 (abi op).2⟩ := by
  cases op <;> exact within (by simp [abi, Spec.Router.erc20PermitExample]) rfl rfl
    (Proofs.Contracts.words_lt _ _ (by simp [abi, Spec.Contracts.arg]) (by simp [abi])) hc ha

set_option maxRecDepth 100000 in
/-- A question is about the account that asks and its arguments. -/
theorem question_within {env : Timed} {a b : Address} (hc : env.caller ∈ S) (ha : a ∈ S) (hb : b ∈ S) :
    About D S ⟨env, 0#256, message "balanceOf(address)" [.address a]⟩ ∧
    About D S ⟨env, 0#256, message "allowance(address,address)" [.address a, .address b]⟩ ∧
    About D S ⟨env, 0#256, message "nonces(address)" [.address a]⟩ ∧
    About D S ⟨env, 0#256, message "DOMAIN_SEPARATOR()" []⟩ := by
  refine ⟨?_, ?_, ?_, ?_⟩ <;>
    exact within (by simp [Spec.Router.erc20PermitExample]) rfl rfl
      (Proofs.Contracts.words_lt _ _ (by simp [Spec.Contracts.arg]) (by simp)) hc (by simp [ha, hb])

theorem ask_words (h : Apart keccak256 n erc20PermitExample (Cells S)) {w : State Ev} (hd : deploy keccak256 = some w)
    {txs : List (Raw Timed)} (hx : ∀ tx ∈ txs, About D S tx) {asker : Timed} {sg : String} {args : List Val}
    (hq : About D S ⟨asker, 0#256, message sg args⟩) :
    ask D P dom asker (after (entry D ⟨keccak256, P, dom⟩) w txs) sg args =
      Spec.Contracts.answer (Contracts.PermitContract.run D P dom) asker
        (after (Contracts.PermitContract.run D P dom) ⟨Erc20.init, Nonces.init⟩ txs) sg args :=
  reply_of_answer (C117_answers (E := ⟨keccak256, P, dom⟩) h hd D txs ⟨asker, 0#256, message sg args⟩ (forall_append hx hq)).1

/-- **C117** With bytes only: the deployed contract answers at first that nobody has anything, that nobody may spend anything, and that
no nonce is used; and after any list of transactions `DOMAIN_SEPARATOR` answers the EIP-712 separator of the domain. -/
theorem C117_start (h : Apart keccak256 n erc20PermitExample (Cells S)) {w : State Ev} (hd : deploy keccak256 = some w) {asker : Timed}
    (hc : asker.caller ∈ S) {a b : Address} (ha : a ∈ S) (hb : b ∈ S) :
    ask D P dom asker w "balanceOf(address)" [.address a] = some (values [.uint256 0#256]) ∧
    ask D P dom asker w "allowance(address,address)" [.address a, .address b] = some (values [.uint256 0#256]) ∧
    ask D P dom asker w "nonces(address)" [.address a] = some (values [.uint256 0#256]) ∧
    ∀ txs, (∀ tx ∈ txs, About D S tx) →
      ask D P dom asker (after (entry D ⟨keccak256, P, dom⟩) w txs) "DOMAIN_SEPARATOR()" [] = some (values [.bytes32 (keccak256
        (be32 (keccak256 (ascii "EIP712Domain(string name,string version,uint256 chainId,address verifyingContract)"))
          ++ be32 (keccak256 dom.name) ++ be32 (keccak256 dom.version) ++ be32 dom.chainId ++ abiAddress dom.contract))]) := by
  obtain ⟨q1, q2, q3, q4⟩ := question_within (D := D) hc ha hb
  have v := fun s => Contracts.PermitContract.C103_permit_views D P dom asker s a b
  refine ⟨?_, ?_, ?_, fun txs hx => ?_⟩
  · exact (ask_words h hd (txs := []) (by simp) q1).trans (congrArg Outcome.reply (v _).2.1)
  · exact (ask_words h hd (txs := []) (by simp) q2).trans (congrArg Outcome.reply (v _).2.2.1)
  · exact (ask_words h hd (txs := []) (by simp) q3).trans (congrArg Outcome.reply (v _).2.2.2.1)
  · exact (ask_words h hd hx q4).trans (congrArg Outcome.reply (v _).2.2.2.2)

/-- **C117** With bytes only: the message `permit(owner, spender, value, deadline, v, r, s)` to the deployed contract, sent by anybody,
is accepted exactly if the deadline has not passed, the owner's nonce is not the last one, the spender is not zero, and the signature
recovers the owner from the EIP-712 digest with the nonce that `nonces` answers.  Then `allowance` answers the value, and `nonces` one
more. -/
theorem C117_permit (h : Apart keccak256 n erc20PermitExample (Cells S)) {w : State Ev} (hd : deploy keccak256 = some w)
    {txs : List (Raw Timed)} (hx : ∀ tx ∈ txs, About D S tx) {asker env : Timed} (hc : asker.caller ∈ S) (he : env.caller ∈ S)
    {o p : Address} (ho : o ∈ S) (hp : p ∈ S) (val d : U256) (v : U8) (r x : B256) (k : U256) :
    let permit : Raw Timed := ⟨env, 0#256, message "permit(address,address,uint256,uint256,uint8,bytes32,bytes32)"
      [.address o, .address p, .uint256 val, .uint256 d, .uint8 v, .bytes32 r, .bytes32 x]⟩
    let w1 := after (entry D ⟨keccak256, P, dom⟩) w txs
    let w2 := after (entry D ⟨keccak256, P, dom⟩) w (txs ++ [permit])
    let accepted := (entry D ⟨keccak256, P, dom⟩ permit.env w1 permit.value permit.input).reply = some []
    ask D P dom asker w1 "nonces(address)" [.address o] = some (values [.uint256 k]) →
    (accepted ↔ env.now.toNat ≤ d.toNat ∧ k.toNat + 1 < 2 ^ 256 ∧ p ≠ ZERO ∧
      Ecdsa.recover P (Spec.Permit.digest ⟨keccak256, P, dom⟩ o p val k d) v r x = .ok o) ∧
    (accepted →
      ask D P dom asker w2 "allowance(address,address)" [.address o, .address p] = some (values [.uint256 val]) ∧
      ask D P dom asker w2 "nonces(address)" [.address o] = some (values [.uint256 (k + 1#256)])) := by
  intro permit w1 w2 accepted hk
  have hpm : About D S permit := C117_call_within (.permit o p val d v r x) 0#256 he (by simp [abi, ho, hp])
  have hx2 := forall_append hx hpm
  obtain ⟨_, q2, q3, _⟩ := question_within (D := D) hc ho hp
  rw [show ask D P dom asker w1 _ _ = _ from ask_words h hd hx q3] at hk
  obtain ⟨h1, h2⟩ := Contracts.PermitContract.C103_permit_permit D P dom env asker
    (after (Contracts.PermitContract.run D P dom) ⟨Erc20.init, Nonces.init⟩ txs) o p val d v r x k hk
  have ha : accepted ↔ (Contracts.PermitContract.run D P dom env
      (after (Contracts.PermitContract.run D P dom) ⟨Erc20.init, Nonces.init⟩ txs) 0#256 permit.input).reply = some [] := by
    have e := reply_of_answer (C117_answers (E := ⟨keccak256, P, dom⟩) h hd D txs permit hx2).1
    exact ⟨fun h => e.symm.trans h, fun h => e.trans h⟩
  refine ⟨ha.trans h1, fun acc => ?_⟩
  rw [show ask D P dom asker w2 "allowance(address,address)" _ = _ from ask_words h hd hx2 q2,
    show ask D P dom asker w2 "nonces(address)" _ = _ from ask_words h hd hx2 q3, after_snoc]
  exact h2 (ha.mp acc)

/-- **C117** With bytes only: whatever transactions come, the answer of the deployed contract to `nonces` never falls.  So, with
`C117_permit`, no signature over a digest with a nonce below that answer is checked against that digest again. -/
theorem C117_nonces (h : Apart keccak256 n erc20PermitExample (Cells S)) {w : State Ev} (hd : deploy keccak256 = some w)
    {txs more : List (Raw Timed)} (hx : ∀ tx ∈ txs ++ more, About D S tx) {asker : Timed} (hc : asker.caller ∈ S) {a : Address} (ha : a ∈ S) :
    ∃ k k' : U256,
      ask D P dom asker (after (entry D ⟨keccak256, P, dom⟩) w txs) "nonces(address)" [.address a] = some (values [.uint256 k]) ∧
      ask D P dom asker (after (entry D ⟨keccak256, P, dom⟩) w (txs ++ more)) "nonces(address)" [.address a] = some (values [.uint256 k']) ∧
      k.toNat ≤ k'.toNat := by
  obtain ⟨_, _, q3, _⟩ := question_within (D := D) hc ha ha
  obtain ⟨k, k', h1, h2, h3⟩ := Contracts.PermitContract.C103_permit_nonces D P dom
    (after (Contracts.PermitContract.run D P dom) ⟨Erc20.init, Nonces.init⟩ txs) more asker a
  refine ⟨k, k', (ask_words h hd (fun tx h' => hx tx (List.mem_append_left _ h')) q3).trans h1, ?_, h3⟩
  refine (ask_words h hd hx q3).trans ?_
  rw [show after _ _ (txs ++ more) = _ from List.foldl_append]
  exact h2

/-- **C117** With bytes only: if the answer to `allowance(o, p)` rises over a transaction to the deployed contract, then `o` sent it, or
it was a `permit` for `o`, `p` and the new amount, in time, with a signature that recovers `o` from the digest with the nonce that
`nonces` had answered. -/
theorem C117_allowance_rises (h : Apart keccak256 n erc20PermitExample (Cells S)) {w : State Ev} (hd : deploy keccak256 = some w)
    {txs : List (Raw Timed)} {tx : Raw Timed} (hx : ∀ tx' ∈ txs ++ [tx], About D S tx') {asker : Timed} (hc : asker.caller ∈ S)
    {o p : Address} (ho : o ∈ S) (hp : p ∈ S) {v v' k : U256} :
    let w1 := after (entry D ⟨keccak256, P, dom⟩) w txs
    let w2 := after (entry D ⟨keccak256, P, dom⟩) w (txs ++ [tx])
    ask D P dom asker w1 "allowance(address,address)" [.address o, .address p] = some (values [.uint256 v]) →
    ask D P dom asker w2 "allowance(address,address)" [.address o, .address p] = some (values [.uint256 v']) →
    ask D P dom asker w1 "nonces(address)" [.address o] = some (values [.uint256 k]) →
    v.toNat < v'.toNat →
    tx.env.caller = o ∨ ∃ d y r x, Says D tx.input "permit(address,address,uint256,uint256,uint8,bytes32,bytes32)"
        [.address o, .address p, .uint256 v', .uint256 d, .uint8 y, .bytes32 r, .bytes32 x] ∧ tx.env.now.toNat ≤ d.toNat ∧
      Ecdsa.recover P (Spec.Permit.digest ⟨keccak256, P, dom⟩ o p v' k d) y r x = .ok o := by
  intro w1 w2 h1 h2 h3 hlt
  have hx1 : ∀ tx' ∈ txs, About D S tx' := fun tx' h' => hx tx' (List.mem_append_left _ h')
  obtain ⟨_, q2, q3, _⟩ := question_within (D := D) hc ho hp
  rw [show ask D P dom asker w1 _ _ = _ from ask_words h hd hx1 q2] at h1
  rw [show ask D P dom asker w2 _ _ = _ from ask_words h hd hx q2, after_snoc] at h2
  rw [show ask D P dom asker w1 _ _ = _ from ask_words h hd hx1 q3] at h3
  exact Contracts.PermitContract.C103_permit_allowance_rises D P dom _ tx asker o p v v' k h1 h2 h3 hlt

end

/-! ### The hypotheses are met -/

/-- The cells of three accounts. -/
def sampleCells : List (List Step) := tokenCells ++ [0#160, 1#160, 2#160].map (NoncesWords.nonce counters)

theorem sample_cells {p : List Step} (h : Cells [0#160, 1#160, 2#160] p) : p ∈ sampleCells := by
  unfold sampleCells
  rcases h with h | ⟨a, ha, rfl⟩
  · exact List.mem_append_left _ (token_cells h)
  · exact List.mem_append_right _ (List.mem_map_of_mem (f := NoncesWords.nonce counters) ha)

/-- What is hashed on the way to the nonces, and the hash values. -/
def nonceTable : List (Bytes × U256) :=
  [(be32 0x0#256 ++ be32 0x3#256, 0x3617319a054d772f909f7c479a2cebe5066e836a939412e32403c99029b92eff#256),
   (be32 0x1#256 ++ be32 0x3#256, 0xa15bc60c955c405d20d9149c709e2460f1c2d9a497496a7f46004d1772c3054c#256),
   (be32 0x2#256 ++ be32 0x3#256, 0xc3a24b0501bd2c13a7e57f2db4369ec4c223447539fc0724a9d55ac4a06ebd4d#256)]

set_option maxRecDepth 100000 in
theorem nonce_table_ok : ∀ e ∈ nonceTable, keccak256 e.1 = e.2 := by
  rw [Proofs.KeccakFast.keccak256_eq]
  decide +kernel

/-- With Keccak the hypotheses of the theorems hold. -/
theorem sample_apart : Apart keccak256 10 erc20PermitExample (Cells [0#160, 1#160, 2#160]) :=
  ⟨by decide, Proofs.Separate.separate sampleCells (tokenTable ++ nonceTable) (fun _ => sample_cells)
    (fun e he => (List.mem_append.mp he).elim (fun h => table_ok e (List.mem_append_left _ h)) (nonce_table_ok e))
    (by decide +kernel) (by decide +kernel) (by decide +kernel)⟩

/-- A precompile that takes every signature for one by account 1. -/
def trusting : Ecdsa.Precompile := fun _ => some (abiAddress 1#160)

-- account 2 sends a permit of 7 by account 1, in time: it is accepted, and the words of the deployed contract answer that 2 may spend 7
-- and that the nonce is used
example (D : Decoder) (dom : Eip712.Domain) : ∃ w, deploy keccak256 = some w ∧
    let permit : Raw Timed := ⟨⟨2#160, 9#64⟩, 0#256, message "permit(address,address,uint256,uint256,uint8,bytes32,bytes32)"
      [.address 1#160, .address 2#160, .uint256 7#256, .uint256 10#256, .uint8 27#8, .bytes32 1#256, .bytes32 1#256]⟩
    let w' := after (entry D ⟨keccak256, trusting, dom⟩) w [permit]
    About D [0#160, 1#160, 2#160] permit ∧
    ask D trusting dom ⟨1#160, 9#64⟩ w' "allowance(address,address)" [.address 1#160, .address 2#160] = some (values [.uint256 7#256]) ∧
    ask D trusting dom ⟨1#160, 9#64⟩ w' "nonces(address)" [.address 1#160] = some (values [.uint256 1#256]) := by
  obtain ⟨w, hd⟩ := C117_deploy keccak256
  refine ⟨w, hd, ?_⟩
  intro permit w'
  have hn := (C117_start (D := D) (P := trusting) (dom := dom) sample_apart hd (asker := ⟨1#160, 9#64⟩) (a := 1#160) (b := 2#160)
    (by simp) (by simp) (by simp)).2.2.1
  obtain ⟨h1, h2⟩ := C117_permit (D := D) (P := trusting) (dom := dom) sample_apart hd (txs := []) (by simp) (asker := ⟨1#160, 9#64⟩)
    (env := ⟨2#160, 9#64⟩) (o := 1#160) (p := 2#160) (by simp) (by simp) (by simp) (by simp) 7#256 10#256 27#8 1#256 1#256 0#256 hn
  have hr : ∀ g, Ecdsa.recover trusting g 27#8 1#256 1#256 = .ok 1#160 := by
    intro g
    have h : Ecdsa.recoverInternal trusting g 27#8 1#256 1#256 = .ok 1#160 := by
      unfold Ecdsa.recoverInternal trusting
      show (do let recovered ← Ecdsa.sliceAddress (abiAddress 1#160)
               if recovered = ZERO then throw .invalidSignature
               return recovered : Except Ecdsa.Err Address) = _
      decide +kernel
    exact h
  refine ⟨C117_call_within (.permit 1#160 2#160 7#256 10#256 27#8 1#256 1#256) 0#256 (by simp) (by simp [abi]), ?_⟩
  exact h2 (h1.mpr ⟨by decide +kernel, by decide +kernel, by decide +kernel, hr _⟩)

end Verif.Props.PermitDeployed
