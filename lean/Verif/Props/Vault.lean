import Verif.Proofs.Outside
import Verif.Props.ContractsErc20
import Verif.Props.Erc4626
/-! # C105: the vault on bytes, over any asset -/
namespace Verif.Props.Vault
open Verif Verif.Abi Verif.Outside Verif.Outside.Vault Verif.Proofs.Outside Verif.Proofs.Outside.Vault Verif.Proofs.Contracts
open Verif.Entry (Strings)
open Verif.Spec.Keccak (keccak256)
open Verif.Spec.Contracts Verif.Spec.Outside
open Verif.Spec.Calls (call)
open Verif.Spec.Revert (addr)

variable {τ : Type}

/-- The operations of the vault. -/
inductive Op where
  | deposit (assets : U256) (receiver : Address)
  | mint (shares : U256) (receiver : Address)
  | withdraw (assets : U256) (receiver owner : Address)
  | redeem (shares : U256) (receiver owner : Address)
  | transfer (dst : Address) (value : U256)
  | transferFrom (src dst : Address) (value : U256)
  | approve (spender : Address) (value : U256)

/-- Signature and arguments of each operation. -/
def abi : Op → String × List Val
  | .deposit a r => ("deposit(uint256,address)", [.uint256 a, .address r])
  | .mint x r => ("mint(uint256,address)", [.uint256 x, .address r])
  | .withdraw a r o => ("withdraw(uint256,address,address)", [.uint256 a, .address r, .address o])
  | .redeem x r o => ("redeem(uint256,address,address)", [.uint256 x, .address r, .address o])
  | .transfer dst v => ("transfer(address,uint256)", [.address dst, .uint256 v])
  | .transferFrom src dst v => ("transferFrom(address,address,uint256)", [.address src, .address dst, .uint256 v])
  | .approve p v => ("approve(address,uint256)", [.address p, .uint256 v])

/-- The operation, for the sender. -/
def exec (W : World τ) (D : Decoder) (caller : Address) (s : State τ) : Op → Except Err (State τ × List Val)
  | .deposit a r => numbered (deposit W keccak256 D s caller a r)
  | .mint x r => numbered (mint W keccak256 D s caller x r)
  | .withdraw a r o => numbered (withdraw W keccak256 D s caller a r o)
  | .redeem x r o => numbered (redeem W keccak256 D s caller x r o)
  | .transfer dst v => giving (inner (fun e => .vault (.erc20 e)) (fun u => { s with shares := u })
      (Erc20.transfer s.shares caller dst v)) [.bool true]
  | .transferFrom src dst v => giving (inner (fun e => .vault (.erc20 e)) (fun u => { s with shares := u })
      (Erc20.transferFrom s.shares caller src dst v)) [.bool true]
  | .approve p v => giving (inner (fun e => .vault (.erc20 e)) (fun u => { s with shares := u })
      (Erc20.approve s.shares caller p v)) [.bool true]

/-- The vault on bytes. -/
abbrev vault (W : World τ) (D : Decoder) (m : Strings) (caller : Address) (s : State τ) (value : U256) (input : Bytes) :
    Outcome (State τ) := Outside.Vault.run W keccak256 D m caller s value input

/-- The revert data of an error. -/
def revert (asset : Address) (e : Err) : Bytes := ((errReply asset e).data keccak256).getD []

abbrev spec : Spec.Router.Entry :=
  ⟨Router.erc4626Example, Spec.Router.erc4626Example, [Spec.Router.erc20, Spec.Router.erc20Metadata, Spec.Router.erc4626]⟩

theorem mem : spec ∈ Spec.Router.contracts := by simp [Spec.Router.contracts]

theorem abi_short (op : Op) : (message (abi op).1 (abi op).2).length < 2 ^ 256 := by
  cases op <;> exact words_lt _ _ (by simp [abi, arg]) (by simp [abi])

set_option maxRecDepth 100000 in
/-- **C105** For every world, operation, sender and state: the message of the call, as the ABI defines it, has exactly the effect
and the reply of the operation, or reverts with exactly the bytes of its error. -/
theorem C105_vault_call (W : World τ) (D : Decoder) (m : Strings) (caller : Address) (s : State τ) (op : Op) :
    vault W D m caller s 0#256 (message (abi op).1 (abi op).2) = reply (revert s.asset) (exec W D caller s op) := by
  cases op <;>
    exact run_message mem D _ s _ _ rfl rfl (by
      first
      | exact outcome_number _
      | exact outcome_inner (rep := Revert.erc20) (rep' := errReply s.asset) (err := fun e => .vault (.erc20 e)) 
          (fun _ => rfl) _ _)
      (by simp [abi, Spec.Router.erc4626Example]) (abi_short _)

set_option maxRecDepth 100000 in
theorem ops (W : World τ) (D : Decoder) (m : Strings) :
    Ops spec (handler W keccak256 D m) abi (exec W D) where
  inv env s sg t n args s' r hm hh := by
    obtain ⟨x, hmem, rfl, rfl, h2⟩ := dispatch_ok hh
    clear hh
    simp only [Contracts.erc20Views, erc20Calls, List.cons_append, List.nil_append, List.mem_cons, List.not_mem_nil,
      or_false] at hmem
    rcases hmem with rfl | rfl | rfl | rfl | rfl | rfl | rfl | rfl | rfl | rfl | rfl | rfl | rfl | rfl | rfl | rfl | rfl |
      rfl | rfl | rfl | rfl | rfl | rfl | rfl | rfl
    all_goals dsimp only at h2 hm
    all_goals split at h2
    all_goals try (first | (cases h2; done) | exact .inl (view_ok h2) | (cases h2; exact .inl rfl))
    all_goals simp [Spec.Router.erc4626Example] at hm
    all_goals subst hm
    · exact .inr ⟨.deposit _ _, rfl, number_ok h2⟩
    · exact .inr ⟨.mint _ _, rfl, number_ok h2⟩
    · exact .inr ⟨.withdraw _ _ _, rfl, number_ok h2⟩
    · exact .inr ⟨.redeem _ _ _, rfl, number_ok h2⟩
    · exact .inr ⟨.transfer _ _, rfl, inner_ok h2⟩
    · exact .inr ⟨.approve _ _, rfl, inner_ok h2⟩
    · exact .inr ⟨.transferFrom _ _ _, rfl, inner_ok h2⟩

/-- **C105** Whatever is sent: the call is refused, or it is answered and changes nothing, or it is a call of one of the
operations (its selector, its arguments, no value) that succeeds, with exactly its effect and its reply. -/
theorem C105_vault_no_other_effect (W : World τ) (D : Decoder) (m : Strings) (caller : Address) (s : State τ) (value : U256)
    (input : Bytes) :
    (∃ data, vault W D m caller s value input = .reverted data) ∨
    (∃ data, vault W D m caller s value input = .returned s data) ∨
    ∃ op s' r, exec W D caller s op = .ok (s', r) ∧ vault W D m caller s value input = .returned s' (values r) ∧
      value = 0#256 ∧ Says D input (abi op).1 (abi op).2 :=
  no_other_effect mem (ops W D m) D caller s value input

set_option maxRecDepth 100000 in
/-- **C105** What the questions about the shares answer, for every sender and state. -/
theorem C105_vault_views (W : World τ) (D : Decoder) (m : Strings) (caller : Address) (s : State τ) (a b : Address) :
    vault W D m caller s 0#256 (message "asset()" []) = .returned s (values [.address s.asset]) ∧
    vault W D m caller s 0#256 (message "totalSupply()" []) = .returned s (values [.uint256 s.shares.totalSupply]) ∧
    vault W D m caller s 0#256 (message "balanceOf(address)" [.address a]) =
      .returned s (values [.uint256 (s.shares.balances a)]) ∧
    vault W D m caller s 0#256 (message "allowance(address,address)" [.address a, .address b]) =
      .returned s (values [.uint256 (s.shares.allowances a b)]) ∧
    vault W D m caller s 0#256 (message "maxRedeem(address)" [.address a]) =
      .returned s (values [.uint256 (s.shares.balances a)]) ∧
    vault W D m caller s 0#256 (message "maxDeposit(address)" [.address a]) = .returned s (values [.uint256 (-1#256)]) ∧
    vault W D m caller s 0#256 (message "maxMint(address)" [.address a]) = .returned s (values [.uint256 (-1#256)]) ∧
    vault W D m caller s 0#256 (message "name()" []) = .returned s (values [.string m.name]) ∧
    vault W D m caller s 0#256 (message "symbol()" []) = .returned s (values [.string m.symbol]) := by
  refine ⟨?_, ?_, ?_, ?_, ?_, ?_, ?_, ?_, ?_⟩ <;>
    refine run_message mem D _ s _ _ rfl rfl ?_ (by simp [Spec.Router.erc4626Example]) (words_lt _ _ (by simp [arg]) (by simp))
  all_goals exact outcome_ok _ _

set_option maxRecDepth 100000 in
/-- **C105** `decimals` answers the sum of the decimals of the asset and the offset if it is below 256, and panics otherwise. -/
theorem C105_decimals (W : World τ) (D : Decoder) (m : Strings) (caller : Address) (s : State τ) :
    vault W D m caller s 0#256 (message "decimals()" []) =
      if s.underlyingDecimals.toNat + s.offset.toNat < 256 then .returned s (values [.uint8 (s.underlyingDecimals + s.offset)])
      else .reverted [] := by
  have h : vault W D m caller s 0#256 (message "decimals()" []) =
      outcome (Contracts.view keccak256 (errReply s.asset) s (Contracts.one .uint8 (decimals s))) :=
    run_message mem D _ s _ _ rfl rfl rfl (by simp [Spec.Router.erc4626Example]) (words_lt _ _ (by simp [arg]) (by simp))
  rw [h]
  unfold decimals checkedAdd
  by_cases c : s.underlyingDecimals.toNat + s.offset.toNat < 256
  · rw [if_pos c, if_pos (show _ < 2 ^ 8 from c)]
    exact outcome_ok _ _
  · rw [if_neg c, if_neg (show ¬ _ < 2 ^ 8 from c)]
    rfl

theorem view_iff {σ : Type} {rep : Err → Revert.Reply} {s : σ} {y : Except Err U256} {x : U256} :
    outcome (Contracts.view keccak256 rep s (Contracts.one .uint256 y)) = .returned s (values [.uint256 x]) ↔ y = .ok x := by
  cases y with
  | error e =>
    constructor
    · intro h; cases h
    · intro h; cases h
  | ok z =>
    constructor
    · intro h
      have h1 : Outcome.returned s (values [.uint256 z]) = .returned s (values [.uint256 x]) := by
        rw [← h]; exact (outcome_ok _ _).symm
      injection h1 with _ h1
      rw [uint256_inj h1]
    · intro h; cases h; exact outcome_ok _ _

set_option maxRecDepth 100000 in
/-- What the functions that ask the asset compute. -/
theorem question (W : World τ) (D : Decoder) (m : Strings) (caller : Address) (s : State τ) (a : U256) (o : Address) :
    let q (y : Except Err U256) := outcome (Contracts.view keccak256 (errReply s.asset) s (Contracts.one .uint256 y))
    vault W D m caller s 0#256 (message "totalAssets()" []) = q (totalAssets W keccak256 D 0 s) ∧
    vault W D m caller s 0#256 (message "convertToShares(uint256)" [.uint256 a]) =
      q (convertToSharesInternal W keccak256 D 0 s a .floor) ∧
    vault W D m caller s 0#256 (message "previewDeposit(uint256)" [.uint256 a]) =
      q (convertToSharesInternal W keccak256 D 0 s a .floor) ∧
    vault W D m caller s 0#256 (message "previewWithdraw(uint256)" [.uint256 a]) =
      q (convertToSharesInternal W keccak256 D 0 s a .ceil) ∧
    vault W D m caller s 0#256 (message "convertToAssets(uint256)" [.uint256 a]) =
      q (convertToAssetsInternal W keccak256 D 0 s a .floor) ∧
    vault W D m caller s 0#256 (message "previewRedeem(uint256)" [.uint256 a]) =
      q (convertToAssetsInternal W keccak256 D 0 s a .floor) ∧
    vault W D m caller s 0#256 (message "previewMint(uint256)" [.uint256 a]) =
      q (convertToAssetsInternal W keccak256 D 0 s a .ceil) ∧
    vault W D m caller s 0#256 (message "maxWithdraw(address)" [.address o]) =
      q (convertToAssetsInternal W keccak256 D 0 s (s.shares.balances o) .floor) := by
  intro q
  refine ⟨?_, ?_, ?_, ?_, ?_, ?_, ?_, ?_⟩ <;>
    exact run_message mem D _ s _ _ rfl rfl rfl (by simp [Spec.Router.erc4626Example]) (words_lt _ _ (by simp [arg]) (by simp))

/-- **C105** Whatever program the asset is: with the answer `A` it gives when the vault asks for its own balance, with the supply
`S` of shares and `V = 10 ^ offset` virtual shares, `totalAssets` answers `A`, `convertToShares` and `previewDeposit` answer
`a * (S + V) / (A + 1)` rounded down, `previewWithdraw` the same rounded up, `convertToAssets` and `previewRedeem`
`x * (A + 1) / (S + V)` rounded down, `previewMint` the same rounded up, and `maxWithdraw` what `convertToAssets` answers for the
balance; they answer exactly if the numbers fit, and none of them changes anything. -/
theorem C105_questions (W : World τ) (D : Decoder) (m : Strings) (caller : Address) (s : State τ) (A : U256)
    (hA : Reports W D s.world 0 s.self_ s.asset A) (a x : U256) (o : Address) :
    let S := s.shares.totalSupply.toNat
    let V := 10 ^ s.offset.toNat
    let answers (sig : String) (args : List Val) := vault W D m caller s 0#256 (message sig args) = .returned s (values [.uint256 x])
    (answers "totalAssets()" [] ↔ x = A) ∧
    (answers "convertToShares(uint256)" [.uint256 a] ↔ Fits s A ∧ Floor (a.toNat * (S + V)) (A.toNat + 1) x.toNat) ∧
    (answers "previewDeposit(uint256)" [.uint256 a] ↔ Fits s A ∧ Floor (a.toNat * (S + V)) (A.toNat + 1) x.toNat) ∧
    (answers "previewWithdraw(uint256)" [.uint256 a] ↔ Fits s A ∧ Ceil (a.toNat * (S + V)) (A.toNat + 1) x.toNat) ∧
    (answers "convertToAssets(uint256)" [.uint256 a] ↔ Fits s A ∧ Floor (a.toNat * (A.toNat + 1)) (S + V) x.toNat) ∧
    (answers "previewRedeem(uint256)" [.uint256 a] ↔ Fits s A ∧ Floor (a.toNat * (A.toNat + 1)) (S + V) x.toNat) ∧
    (answers "previewMint(uint256)" [.uint256 a] ↔ Fits s A ∧ Ceil (a.toNat * (A.toNat + 1)) (S + V) x.toNat) ∧
    (answers "maxWithdraw(address)" [.address o] ↔
      Fits s A ∧ Floor ((s.shares.balances o).toNat * (A.toNat + 1)) (S + V) x.toNat) := by
  intro S V answers
  have hq := question W D m caller s a o
  simp only at hq
  obtain ⟨h1, h2, h3, h4, h5, h6, h7, h8⟩ := hq
  have only : ∀ {P : U256 → Prop}, (∃ B, Reports W D s.world 0 s.self_ s.asset B ∧ P B) ↔ P A := by
    intro P
    constructor
    · rintro ⟨B, hB, h⟩; cases reports_unique hA hB; exact h
    · intro h; exact ⟨A, hA, h⟩
  have e : ∀ sig args, answers sig args ↔
      vault W D m caller s 0#256 (message sig args) = .returned s (values [.uint256 x]) := fun _ _ => Iff.rfl
  refine ⟨?_, ?_, ?_, ?_, ?_, ?_, ?_, ?_⟩
  · rw [e, h1, view_iff, totalAssets_ok]
    constructor
    · intro h; exact reports_unique h hA
    · rintro rfl; exact hA
  · rw [e, h2, view_iff, sharesFloor, only]
  · rw [e, h3, view_iff, sharesFloor, only]
  · rw [e, h4, view_iff, sharesCeil, only]
  · rw [e, h5, view_iff, assetsFloor, only]
  · rw [e, h6, view_iff, assetsFloor, only]
  · rw [e, h7, view_iff, assetsCeil, only]
  · rw [e, h8, view_iff, assetsFloor, only]

/-- The revert data of `InvalidAsset`. -/
theorem invalid_asset (a asset : Address) : revert a (.invalidAsset asset) = call "InvalidAsset(address)" [addr asset] := by
  unfold revert errReply
  exact error_bytes "InvalidAsset" _ "InvalidAsset(address)" rfl rfl

/-- **C105** Whatever program the asset is: if it gives no number when the vault asks for its own balance (it reverts, it answers
something else, there is no code at its address), then every function that needs this number reverts with `InvalidAsset(asset)`:
the questions, `deposit`, `mint`, `withdraw` and `redeem`.  Before that, `redeem` refuses more shares than the owner has, and
those that turn assets into shares panic if the virtual supply does not fit. -/
theorem C105_no_answer (W : World τ) (D : Decoder) (m : Strings) (caller : Address) (s : State τ)
    (hA : ∀ A, ¬ Reports W D s.world 0 s.self_ s.asset A) (a : U256) (r o : Address) :
    let fails (sig : String) (args : List Val) (data : Bytes) := vault W D m caller s 0#256 (message sig args) = .reverted data
    let invalid := call "InvalidAsset(address)" [addr s.asset]
    let late := if s.shares.totalSupply.toNat + 10 ^ s.offset.toNat < 2 ^ 256 then invalid else []
    fails "totalAssets()" [] invalid ∧
    fails "convertToAssets(uint256)" [.uint256 a] invalid ∧
    fails "previewMint(uint256)" [.uint256 a] invalid ∧
    fails "previewRedeem(uint256)" [.uint256 a] invalid ∧
    fails "maxWithdraw(address)" [.address o] invalid ∧
    fails "mint(uint256,address)" [.uint256 a, .address r] invalid ∧
    fails "withdraw(uint256,address,address)" [.uint256 a, .address r, .address o] invalid ∧
    fails "redeem(uint256,address,address)" [.uint256 a, .address r, .address o]
      (if a.toNat ≤ (s.shares.balances o).toNat then invalid
      else call "ERC4626ExceededMaxRedeem(address,uint256,uint256)" [addr o, a, s.shares.balances o]) ∧
    fails "convertToShares(uint256)" [.uint256 a] late ∧
    fails "previewDeposit(uint256)" [.uint256 a] late ∧
    fails "previewWithdraw(uint256)" [.uint256 a] late ∧
    fails "deposit(uint256,address)" [.uint256 a, .address r] late := by
  intro fails invalid late
  have hq := question W D m caller s a o
  simp only at hq
  obtain ⟨h1, h2, h3, h4, h5, h6, h7, h8⟩ := hq
  have inv : ∀ b, outcome (Contracts.view keccak256 (errReply s.asset) s (Contracts.one .uint256 (.error (.invalidAsset b)))) =
      .reverted (call "InvalidAsset(address)" [addr b]) := by
    intro b; rw [← invalid_asset s.asset]; rfl
  have ca := fun x r => convAssets_none hA x r
  have cs := fun x r => convShares_none hA x r
  have hl : ∀ y r, outcome (Contracts.view keccak256 (errReply s.asset) s
      (Contracts.one .uint256 (convertToSharesInternal W keccak256 D 0 s y r))) = .reverted late := by
    intro y r
    rw [cs y r]
    by_cases hf : s.shares.totalSupply.toNat + 10 ^ s.offset.toNat < 2 ^ 256
    · rw [if_pos hf, inv]; simp only [late, if_pos hf]; rfl
    · rw [if_neg hf]; simp only [late, if_neg hf]; rfl
  have bad : revert s.asset (.invalidAsset s.asset) = invalid := invalid_asset _ _
  refine ⟨h1.trans (by rw [totalAssets_none hA, inv]), h5.trans (by rw [ca, inv]), h7.trans (by rw [ca, inv]),
    h6.trans (by rw [ca, inv]), h8.trans (by rw [ca, inv]), ?_, ?_, ?_, h2.trans (hl _ _), h3.trans (hl _ _), h4.trans (hl _ _), ?_⟩
  · refine (C105_vault_call W D m caller s (.mint a r)).trans ?_
    show reply _ (numbered (mint W keccak256 D s caller a r)) = _
    rw [mint_eq, ca, ← bad]
    rfl
  · refine (C105_vault_call W D m caller s (.withdraw a r o)).trans ?_
    have hm := ca (s.shares.balances o) .floor
    unfold exec withdraw maxWithdraw Erc20.balanceOf
    simp only [hm, ← bad]
    rfl
  · refine (C105_vault_call W D m caller s (.redeem a r o)).trans ?_
    have hm := ca a .floor
    unfold exec redeem
    simp only [hm]
    by_cases hb : a.toNat ≤ (s.shares.balances o).toNat
    · have : ¬ Erc20.balanceOf s.shares o < a := by rw [BitVec.lt_def]; exact not_lt.mpr hb
      simp only [this, if_false, if_pos hb, ← bad]
      rfl
    · have : Erc20.balanceOf s.shares o < a := by rw [BitVec.lt_def]; exact not_le.mp hb
      simp only [this, if_true, if_neg hb]
      exact congrArg Outcome.reverted (error_bytes "ERC4626ExceededMaxRedeem" _
        "ERC4626ExceededMaxRedeem(address,uint256,uint256)" rfl rfl)
  · refine (C105_vault_call W D m caller s (.deposit a r)).trans ?_
    show reply _ (numbered (deposit W keccak256 D s caller a r)) = _
    rw [deposit_eq, cs]
    by_cases hf : s.shares.totalSupply.toNat + 10 ^ s.offset.toNat < 2 ^ 256
    · simp only [late, if_pos hf, ← bad]; rfl
    · simp only [late, if_neg hf]; rfl

/-- **C105** An address without code gives no number. -/
theorem C105_no_code (W : World τ) (D : Decoder) (t : τ) (n : Nat) (self_ asset A : _) (h : W.hasCode t asset = false) :
    ¬ Reports W D t n self_ asset A := by
  rintro ⟨h1, _⟩
  rw [h] at h1; cases h1

/-! ### Histories of the shares -/

/-- Each operation is one call of the share token by the sender; the rest of the vault stays. -/
theorem shares_exec {W : World τ} {D : Decoder} {caller : Address} {s s' : State τ} {op : Op} {r : List Val}
    (h : exec W D caller s op = .ok (s', r)) :
    (s'.self_ = s.self_ ∧ s'.asset = s.asset ∧ s'.offset = s.offset ∧ s'.underlyingDecimals = s.underlyingDecimals) ∧
      ∃ k, Erc20.exec s.shares (caller, k) = .ok s'.shares := by
  have burned : ∀ {a x : U256} {r o : Address}, withdrawInternal W keccak256 s caller r o a x = .ok s' →
      (s'.self_ = s.self_ ∧ s'.asset = s.asset ∧ s'.offset = s.offset ∧ s'.underlyingDecimals = s.underlyingDecimals) ∧
      ∃ k, Erc20.exec s.shares (caller, k) = .ok s'.shares := by
    intro a x r o h
    obtain ⟨u1, u2, t, h1, h2, h3, rfl⟩ := withdrawInternal_ok.mp h
    refine ⟨⟨rfl, rfl, rfl, rfl⟩, ?_⟩
    unfold Spent at h1
    split at h1
    · rename_i e; subst h1 e; exact ⟨.burn x, h2⟩
    · refine ⟨.burnFrom o x, ?_⟩
      show Erc20.burnFrom s.shares caller o x = _
      unfold Erc20.burnFrom
      rw [h1]; exact h2
  cases op with
  | deposit a r =>
    obtain ⟨n, h, -⟩ := numbered_eq_ok.mp h
    obtain ⟨t, u, -, hm, rfl⟩ := depositInternal_ok.mp (deposit_ok.mp h).2
    exact ⟨⟨rfl, rfl, rfl, rfl⟩, .mint r n, hm⟩
  | mint x r =>
    obtain ⟨n, h, -⟩ := numbered_eq_ok.mp h
    obtain ⟨t, u, -, hm, rfl⟩ := depositInternal_ok.mp (mint_ok.mp h).2
    exact ⟨⟨rfl, rfl, rfl, rfl⟩, .mint r x, hm⟩
  | withdraw a r o =>
    obtain ⟨n, h, -⟩ := numbered_eq_ok.mp h
    obtain ⟨_, _, _, _, h⟩ := withdraw_ok.mp h
    exact burned h
  | redeem x r o =>
    obtain ⟨n, h, -⟩ := numbered_eq_ok.mp h
    obtain ⟨_, _, h⟩ := redeem_ok.mp h
    exact burned h
  | transfer dst v =>
    obtain ⟨u, hu, rfl⟩ := inner_eq_ok.mp (giving_eq_ok.mp h).1
    exact ⟨⟨rfl, rfl, rfl, rfl⟩, .transfer dst v, hu⟩
  | transferFrom src dst v =>
    obtain ⟨u, hu, rfl⟩ := inner_eq_ok.mp (giving_eq_ok.mp h).1
    exact ⟨⟨rfl, rfl, rfl, rfl⟩, .transferFrom src dst v, hu⟩
  | approve p v =>
    obtain ⟨u, hu, rfl⟩ := inner_eq_ok.mp (giving_eq_ok.mp h).1
    exact ⟨⟨rfl, rfl, rfl, rfl⟩, .approve p v, hu⟩

/-- The vault is the same, its share token has gone through some calls. -/
def Kept (s s' : State τ) : Prop :=
  (s'.self_ = s.self_ ∧ s'.asset = s.asset ∧ s'.offset = s.offset ∧ s'.underlyingDecimals = s.underlyingDecimals) ∧
    ∃ ks, s'.shares = Erc20.run s.shares ks

theorem Kept.refl (s : State τ) : Kept s s := ⟨⟨rfl, rfl, rfl, rfl⟩, [], rfl⟩

theorem Kept.trans {s s1 s2 : State τ} (h : Kept s s1) (h' : Kept s1 s2) : Kept s s2 := by
  obtain ⟨⟨a1, a2, a3, a4⟩, ks, ak⟩ := h
  obtain ⟨⟨b1, b2, b3, b4⟩, ls, bk⟩ := h'
  exact ⟨⟨b1.trans a1, b2.trans a2, b3.trans a3, b4.trans a4⟩, ks ++ ls, by
    rw [bk, ak]; exact (runOf_append _ _ _ _).symm⟩

theorem kept_call (W : World τ) (D : Decoder) (m : Strings) (c : Address) (s : State τ) (v : U256) (i : Bytes) :
    Kept s ((vault W D m c s v i).after s) := by
  rcases C105_vault_no_other_effect W D m c s v i with ⟨d, h⟩ | ⟨d, h⟩ | ⟨op, s', r, he, h, _, _⟩
  · rw [h]; exact .refl s
  · rw [h]; exact .refl s
  · rw [h]
    obtain ⟨h1, k, hk⟩ := shares_exec he
    refine ⟨h1, [(c, k)], ?_⟩
    show s'.shares = runOf _ _ _
    simp only [runOf, List.foldl, stepOf]
    rw [hk]

theorem kept_play (W : World τ) (D : Decoder) (m : Strings) (l : List (Step τ)) (s : State τ) :
    Kept s (vaultAfter W D m s l) := by
  induction l generalizing s with
  | nil => exact .refl s
  | cons x l ih =>
    cases x with
    | outside f => exact Kept.trans ⟨⟨rfl, rfl, rfl, rfl⟩, [], rfl⟩ (ih { s with world := f s.world })
    | call c v i => exact (kept_call W D m c s v i).trans (ih _)

theorem reached_shares {W : World τ} {D : Decoder} {m : Strings} {s : State τ} (h : VaultReached W D m s) :
    Spec.Erc20.Reachable s.shares := by
  obtain ⟨self_, asset, d, o, t, l, rfl⟩ := h
  obtain ⟨_, ks, hk⟩ := kept_play W D m l (newVault self_ asset d o t)
  exact ⟨ks, hk⟩

theorem reached_sum {W : World τ} {D : Decoder} {m : Strings} {s : State τ} (h : VaultReached W D m s) :
    Erc20.SumOk s.shares := Props.reachable_sumOk (reached_shares h)

/-- **C105** Address, asset and offset of a vault never change. -/
theorem C105_fixed (W : World τ) (D : Decoder) (m : Strings) (l : List (Step τ)) (s : State τ) :
    let s' := vaultAfter W D m s l
    s'.self_ = s.self_ ∧ s'.asset = s.asset ∧ s'.offset = s.offset ∧ s'.underlyingDecimals = s.underlyingDecimals :=
  (kept_play W D m l s).1

/-- **C105** Whatever the asset does: after any history the answers to `balanceOf` add up to the answer to `totalSupply`. -/
theorem C105_share_supply (W : World τ) (D : Decoder) (m : Strings) {s : State τ} (hr : VaultReached W D m s) (asker : Address) :
    ∃ (total : U256) (bal : Address → U256),
      answer (vault W D m) asker s "totalSupply()" [] = some (values [.uint256 total]) ∧
      (∀ a, answer (vault W D m) asker s "balanceOf(address)" [.address a] = some (values [.uint256 (bal a)])) ∧
      ∑ a, (bal a).toNat = total.toNat := by
  refine ⟨s.shares.totalSupply, s.shares.balances, ?_, fun a => ?_, reached_sum hr⟩
  · unfold answer
    rw [(C105_vault_views W D m asker s 0#160 0#160).2.1]; rfl
  · unfold answer
    rw [(C105_vault_views W D m asker s a 0#160).2.2.1]; rfl

/-- **C105** Whatever the asset does: if the answer to `balanceOf` falls over a step, the step is a transaction to the vault, and
the holder sent it or `allowance` had answered at least the difference for the sender. -/
theorem C105_no_theft (W : World τ) (D : Decoder) (m : Strings) {s : State τ} (hr : VaultReached W D m s) (x : Step τ)
    (asker a : Address) (n n' : U256)
    (hb : answer (vault W D m) asker s "balanceOf(address)" [.address a] = some (values [.uint256 n]))
    (ha : answer (vault W D m) asker (vaultAfter W D m s [x]) "balanceOf(address)" [.address a] = some (values [.uint256 n']))
    (hlt : n'.toNat < n.toNat) :
    ∃ caller value input, x = .call caller value input ∧ (caller = a ∨ ∃ allowed : U256, n.toNat - n'.toNat ≤ allowed.toNat ∧
      answer (vault W D m) asker s "allowance(address,address)" [.address a, .address caller] =
        some (values [.uint256 allowed])) := by
  unfold answer at *
  rw [(C105_vault_views W D m asker s a 0#160).2.2.1] at hb
  rw [(C105_vault_views W D m asker _ a 0#160).2.2.1] at ha
  injection hb with hb
  injection ha with ha
  rw [← uint256_inj hb, ← uint256_inj ha] at hlt ⊢
  cases x with
  | outside f => exact absurd hlt (lt_irrefl _)
  | call c v i =>
    refine ⟨c, v, i, rfl, ?_⟩
    rw [(C105_vault_views W D m asker s a c).2.2.2.1]
    change (((vault W D m c s v i).after s).shares.balances a).toNat < _ at hlt
    show _ ∨ ∃ allowed : U256, _ - (((vault W D m c s v i).after s).shares.balances a).toNat ≤ _ ∧ _
    rcases C105_vault_no_other_effect W D m c s v i with ⟨d, h⟩ | ⟨d, h⟩ | ⟨op, s', r, he, h, _, _⟩
    · rw [h] at hlt; exact absurd hlt (lt_irrefl _)
    · rw [h] at hlt; exact absurd hlt (lt_irrefl _)
    · rw [h] at hlt ⊢
      obtain ⟨_, k, hk⟩ := shares_exec he
      rcases Props.C05_only_authorised_debit (reached_shares hr) hk (a := a) hlt with h1 | h1
      · exact .inl h1
      · exact .inr ⟨_, h1, rfl⟩

/-! ### The four operations -/

theorem reply_iff {σ ε : Type} {rev : ε → Bytes} {x : Except ε (σ × List Val)} {s' : σ} {data : Bytes} :
    reply rev x = .returned s' data ↔ ∃ r, x = .ok (s', r) ∧ data = values r := by
  rcases x with e | ⟨s1, r⟩
  · simp [reply]
  · simp only [reply, Outcome.returned.injEq, Except.ok.injEq, Prod.mk.injEq]
    constructor
    · rintro ⟨rfl, rfl⟩; exact ⟨r, ⟨rfl, rfl⟩, rfl⟩
    · rintro ⟨_, ⟨rfl, rfl⟩, rfl⟩; exact ⟨rfl, rfl⟩

/-- The result of an operation that answers a number. -/
theorem number_iff {W : World τ} {D : Decoder} {m : Strings} {caller : Address} {s s' : State τ} {data : Bytes} (op : Op)
    {x : Except Err (U256 × State τ)} (hx : exec W D caller s op = numbered x) :
    vault W D m caller s 0#256 (message (abi op).1 (abi op).2) = .returned s' data ↔
      ∃ n, x = .ok (n, s') ∧ data = values [.uint256 n] := by
  rw [C105_vault_call, reply_iff, hx]
  constructor
  · rintro ⟨r, h, rfl⟩
    obtain ⟨n, hn, rfl⟩ := numbered_eq_ok.mp h
    exact ⟨n, hn, rfl⟩
  · rintro ⟨n, h, rfl⟩
    exact ⟨_, numbered_eq_ok.mpr ⟨n, h, rfl⟩, rfl⟩

/-- **C105** `deposit(a, r)` succeeds exactly if the asset gives a number `A` for the vault's balance, the numbers fit, the asset
takes `transferFrom(sender, vault, a)`, `r` is not the zero address, and there is room for the shares; it creates
`a * (S + V) / (A + 1)` shares, rounded down, for `r`, answers their number, and does nothing else. -/
theorem C105_deposit (W : World τ) (D : Decoder) (m : Strings) (caller : Address) {s : State τ} (hr : VaultReached W D m s)
    (a : U256) (r : Address) (s' : State τ) (data : Bytes) :
    vault W D m caller s 0#256 (message "deposit(uint256,address)" [.uint256 a, .address r]) = .returned s' data ↔
      ∃ A x t u, Reports W D s.world 0 s.self_ s.asset A ∧ Fits s A ∧
        Floor (a.toNat * (s.shares.totalSupply.toNat + 10 ^ s.offset.toNat)) (A.toNat + 1) x.toNat ∧
        Takes W s.world s.self_ s.asset
          (message "transferFrom(address,address,uint256)" [.address caller, .address s.self_, .uint256 a]) t ∧
        r ≠ ZERO ∧ s.shares.totalSupply.toNat + x.toNat < 2 ^ 256 ∧ Created s.shares u r x ∧
        s' = { s with world := t, shares := u, log := s.log ++ [.deposit caller r a x] } ∧ data = values [.uint256 x] := by
  refine (number_iff (.deposit a r) rfl).trans ?_
  simp only [deposit_ok, sharesFloor, depositInternal_iff (reached_sum hr)]
  constructor
  · rintro ⟨x, ⟨⟨A, h1, h2, h3⟩, t, u, h4, h5, h6, h7, h8⟩, h9⟩
    exact ⟨A, x, t, u, h1, h2, h3, h4, h5, h6, h7, h8, h9⟩
  · rintro ⟨A, x, t, u, h1, h2, h3, h4, h5, h6, h7, h8, h9⟩
    exact ⟨x, ⟨⟨A, h1, h2, h3⟩, t, u, h4, h5, h6, h7, h8⟩, h9⟩

/-- **C105** `mint(x, r)`: the same with the number of shares given; it takes `x * (A + 1) / (S + V)` of the asset, rounded up. -/
theorem C105_mint (W : World τ) (D : Decoder) (m : Strings) (caller : Address) {s : State τ} (hr : VaultReached W D m s)
    (x : U256) (r : Address) (s' : State τ) (data : Bytes) :
    vault W D m caller s 0#256 (message "mint(uint256,address)" [.uint256 x, .address r]) = .returned s' data ↔
      ∃ A a t u, Reports W D s.world 0 s.self_ s.asset A ∧ Fits s A ∧
        Ceil (x.toNat * (A.toNat + 1)) (s.shares.totalSupply.toNat + 10 ^ s.offset.toNat) a.toNat ∧
        Takes W s.world s.self_ s.asset
          (message "transferFrom(address,address,uint256)" [.address caller, .address s.self_, .uint256 a]) t ∧
        r ≠ ZERO ∧ s.shares.totalSupply.toNat + x.toNat < 2 ^ 256 ∧ Created s.shares u r x ∧
        s' = { s with world := t, shares := u, log := s.log ++ [.deposit caller r a x] } ∧ data = values [.uint256 a] := by
  refine (number_iff (.mint x r) rfl).trans ?_
  simp only [mint_ok, assetsCeil, depositInternal_iff (reached_sum hr)]
  constructor
  · rintro ⟨x, ⟨⟨A, h1, h2, h3⟩, t, u, h4, h5, h6, h7, h8⟩, h9⟩
    exact ⟨A, x, t, u, h1, h2, h3, h4, h5, h6, h7, h8, h9⟩
  · rintro ⟨A, x, t, u, h1, h2, h3, h4, h5, h6, h7, h8, h9⟩
    exact ⟨x, ⟨⟨A, h1, h2, h3⟩, t, u, h4, h5, h6, h7, h8⟩, h9⟩

/-- **C105** `withdraw(a, r, o)` asks the asset twice: the first answer bounds `a` by what the shares of `o` are worth, the second
gives the number of shares to destroy, rounded up.  It succeeds exactly if both are numbers that fit, `a` is within the bound, `o`
has these shares, the sender is `o` or has the allowance, and the asset takes `transfer(r, a)`. -/
theorem C105_withdraw (W : World τ) (D : Decoder) (m : Strings) (caller : Address) (hc : caller ≠ ZERO) {s : State τ}
    (hr : VaultReached W D m s) (a : U256) (r o : Address) (s' : State τ) (data : Bytes) :
    vault W D m caller s 0#256 (message "withdraw(uint256,address,address)" [.uint256 a, .address r, .address o]) =
        .returned s' data ↔
      ∃ A most A' x t u, Reports W D s.world 0 s.self_ s.asset A ∧ Fits s A ∧
        Floor ((s.shares.balances o).toNat * (A.toNat + 1)) (s.shares.totalSupply.toNat + 10 ^ s.offset.toNat) most ∧
        most < 2 ^ 256 ∧ a.toNat ≤ most ∧
        Reports W D s.world 1 s.self_ s.asset A' ∧ Fits s A' ∧
        Ceil (a.toNat * (s.shares.totalSupply.toNat + 10 ^ s.offset.toNat)) (A'.toNat + 1) x.toNat ∧
        Takes W s.world s.self_ s.asset (message "transfer(address,uint256)" [.address r, .uint256 a]) t ∧
        o ≠ ZERO ∧ x.toNat ≤ (s.shares.balances o).toNat ∧
        (caller = o ∨ x.toNat ≤ (s.shares.allowances o caller).toNat) ∧ Destroyed s.shares u caller o x ∧
        s' = { s with world := t, shares := u, log := s.log ++ [.withdraw caller r o a x] } ∧ data = values [.uint256 x] := by
  refine (number_iff (.withdraw a r o) rfl).trans ?_
  simp only [withdraw_ok, assetsFloor, sharesCeil, withdrawInternal_iff (reached_sum hr) hc]
  constructor
  · rintro ⟨x, ⟨most, ⟨A, h1, h2, h3⟩, hle, ⟨A', k1, k2, k3⟩, t, u, h4, h5, h6, h7, h8, h9⟩, h10⟩
    exact ⟨A, most.toNat, A', x, t, u, h1, h2, h3, most.isLt, hle, k1, k2, k3, h4, h5, h6, h7, h8, h9, h10⟩
  · rintro ⟨A, most, A', x, t, u, h1, h2, h3, hl, hle, k1, k2, k3, h4, h5, h6, h7, h8, h9, h10⟩
    have e : (BitVec.ofNat 256 most).toNat = most := by rw [BitVec.toNat_ofNat]; exact Nat.mod_eq_of_lt hl
    exact ⟨x, ⟨BitVec.ofNat 256 most, ⟨A, h1, h2, by rw [e]; exact h3⟩, by rw [e]; exact hle, ⟨A', k1, k2, k3⟩, t, u, h4, h5, h6, h7,
      h8, h9⟩, h10⟩

/-- **C105** `redeem(x, r, o)` succeeds exactly if `o` has the shares, the asset gives a number, the numbers fit, the sender is `o`
or has the allowance, and the asset takes `transfer(r, a)` for `a = x * (A + 1) / (S + V)` rounded down. -/
theorem C105_redeem (W : World τ) (D : Decoder) (m : Strings) (caller : Address) (hc : caller ≠ ZERO) {s : State τ}
    (hr : VaultReached W D m s) (x : U256) (r o : Address) (s' : State τ) (data : Bytes) :
    vault W D m caller s 0#256 (message "redeem(uint256,address,address)" [.uint256 x, .address r, .address o]) =
        .returned s' data ↔
      ∃ A a t u, Reports W D s.world 0 s.self_ s.asset A ∧ Fits s A ∧
        Floor (x.toNat * (A.toNat + 1)) (s.shares.totalSupply.toNat + 10 ^ s.offset.toNat) a.toNat ∧
        Takes W s.world s.self_ s.asset (message "transfer(address,uint256)" [.address r, .uint256 a]) t ∧
        o ≠ ZERO ∧ x.toNat ≤ (s.shares.balances o).toNat ∧
        (caller = o ∨ x.toNat ≤ (s.shares.allowances o caller).toNat) ∧ Destroyed s.shares u caller o x ∧
        s' = { s with world := t, shares := u, log := s.log ++ [.withdraw caller r o a x] } ∧ data = values [.uint256 a] := by
  refine (number_iff (.redeem x r o) rfl).trans ?_
  simp only [redeem_ok, assetsFloor, withdrawInternal_iff (reached_sum hr) hc]
  constructor
  · rintro ⟨a, ⟨_, ⟨A, h1, h2, h3⟩, t, u, h4, h5, h6, h7, h8, h9⟩, h10⟩
    exact ⟨A, a, t, u, h1, h2, h3, h4, h5, h6, h7, h8, h9, h10⟩
  · rintro ⟨A, a, t, u, h1, h2, h3, h4, h5, h6, h7, h8, h9, h10⟩
    exact ⟨a, ⟨h6, ⟨A, h1, h2, h3⟩, t, u, h4, h5, h6, h7, h8, h9⟩, h10⟩

theorem supply_le {u u' : Erc20.State} {c : Address} {k : Erc20.Call} (hs : Erc20.SumOk u)
    (h : Erc20.exec u (c, k) = .ok u') (hn : ∀ a v, k ≠ .mint a v) : u'.totalSupply.toNat ≤ u.totalSupply.toNat := by
  have le : ∀ {u u' : Erc20.State} {src dst : Address} {v : U256}, Erc20.SumOk u → src ≠ ZERO →
      Erc20.update u src dst v = .ok u' → u'.totalSupply.toNat ≤ u.totalSupply.toNat := by
    intro u u' src dst v hs h0 h
    have := (Erc20.update_effect hs h).supply
    simp only [h0, if_false] at this
    omega
  cases k with
  | transfer dst v =>
    have := Erc20.transferInternal_eq_ok.mp h
    exact le hs this.1 this.2.2
  | transferFrom src dst v =>
    obtain ⟨s1, h1, h2⟩ := Erc20.transferFrom_eq_ok.mp h
    obtain ⟨hb, ht, _⟩ := Erc20.spend_frame h1
    have := Erc20.transferInternal_eq_ok.mp h2
    rw [← ht]
    exact le (hs.of_frame hb ht) this.1 this.2.2
  | approve sp v =>
    obtain ⟨_, _, rfl⟩ := Erc20.approve_eq_ok.mp h
    exact le_refl _
  | mint a v => exact absurd rfl (hn a v)
  | burn v =>
    have := Erc20.burnInternal_eq_ok.mp h
    exact le hs this.1 this.2
  | burnFrom a v =>
    obtain ⟨s1, h1, h2⟩ := Erc20.burnFrom_eq_ok.mp h
    obtain ⟨hb, ht, _⟩ := Erc20.spend_frame h1
    have := Erc20.burnInternal_eq_ok.mp h2
    rw [← ht]
    exact le (hs.of_frame hb ht) this.1 this.2

/-- **C105** Whatever is sent, and whatever the asset is: if the supply of shares rises over a raw transaction, the asset has taken
`transferFrom(sender, vault, a)`, and the new shares cost the sender no less than the rate `(A + 1) / (S + V)` before. -/
theorem C105_shares_are_paid (W : World τ) (D : Decoder) (m : Strings) (caller : Address) {s : State τ} (hr : VaultReached W D m s)
    (value : U256) (input : Bytes) (s' : State τ) (data : Bytes) (h : vault W D m caller s value input = .returned s' data)
    (hrise : s.shares.totalSupply.toNat < s'.shares.totalSupply.toNat) :
    ∃ A a : U256, Reports W D s.world 0 s.self_ s.asset A ∧
      Takes W s.world s.self_ s.asset
        (message "transferFrom(address,address,uint256)" [.address caller, .address s.self_, .uint256 a]) s'.world ∧
      (s'.shares.totalSupply.toNat - s.shares.totalSupply.toNat) * (A.toNat + 1) ≤
        a.toNat * (s.shares.totalSupply.toNat + 10 ^ s.offset.toNat) := by
  have hs := reached_sum hr
  rcases C105_vault_no_other_effect W D m caller s value input with ⟨d, h1⟩ | ⟨d, h1⟩ | ⟨op, s1, r, he, h1, _, _⟩
  · rw [h1] at h; cases h
  · rw [h1] at h; cases h; exact absurd hrise (lt_irrefl _)
  · rw [h1] at h
    injection h with e _
    subst e
    have none : ∀ {k c}, Erc20.exec s.shares (c, k) = .ok s1.shares → (∀ a v, k ≠ .mint a v) → False := by
      intro k c hk hn
      have := Props.Vault.supply_le hs hk hn
      omega
    cases op with
    | deposit a r =>
      obtain ⟨n, h, -⟩ := numbered_eq_ok.mp he
      obtain ⟨h2, h3⟩ := deposit_ok.mp h
      obtain ⟨A, hA, hF, hx⟩ := sharesFloor.mp h2
      obtain ⟨t, u, h4, h5, h6, h7, rfl⟩ := (depositInternal_iff hs).mp h3
      refine ⟨A, a, hA, h4, ?_⟩
      have := h7.supply
      simp only [this, Nat.add_sub_cancel_left]
      exact hx.1
    | mint x r =>
      obtain ⟨n, h, -⟩ := numbered_eq_ok.mp he
      obtain ⟨h2, h3⟩ := mint_ok.mp h
      obtain ⟨A, hA, hF, hx⟩ := assetsCeil.mp h2
      obtain ⟨t, u, h4, h5, h6, h7, rfl⟩ := (depositInternal_iff hs).mp h3
      refine ⟨A, n, hA, h4, ?_⟩
      have := h7.supply
      simp only [this, Nat.add_sub_cancel_left]
      exact hx.1
    | withdraw a r o =>
      obtain ⟨n, h, -⟩ := numbered_eq_ok.mp he
      obtain ⟨_, _, _, _, h⟩ := withdraw_ok.mp h
      obtain ⟨u1, u2, t, k1, k2, k3, rfl⟩ := withdrawInternal_ok.mp h
      have := (destroyed_of_burn hs k1 k2).supply
      simp only at hrise
      omega
    | redeem x r o =>
      obtain ⟨n, h, -⟩ := numbered_eq_ok.mp he
      obtain ⟨_, _, h⟩ := redeem_ok.mp h
      obtain ⟨u1, u2, t, k1, k2, k3, rfl⟩ := withdrawInternal_ok.mp h
      have := (destroyed_of_burn hs k1 k2).supply
      simp only at hrise
      omega
    | transfer dst v =>
      obtain ⟨u, hu, rfl⟩ := inner_eq_ok.mp (giving_eq_ok.mp he).1
      exact (none (k := .transfer dst v) (c := caller) hu (by simp)).elim
    | transferFrom src dst v =>
      obtain ⟨u, hu, rfl⟩ := inner_eq_ok.mp (giving_eq_ok.mp he).1
      exact (none (k := .transferFrom src dst v) (c := caller) hu (by simp)).elim
    | approve p v =>
      obtain ⟨u, hu, rfl⟩ := inner_eq_ok.mp (giving_eq_ok.mp he).1
      exact (none (k := .approve p v) (c := caller) hu (by simp)).elim

/-- **C105** Whatever is sent, and whatever the asset is: if the rest of the chain changes over a raw transaction to the vault, the
vault has sent one message to the asset.  It is `transferFrom` from the sender of the transaction to the vault; or it is
`transfer(r, a)`, and the shares destroyed for it are worth at least `a` at the rate `(A + 1) / (S + V)` before. -/
theorem C105_assets_are_paid (W : World τ) (D : Decoder) (m : Strings) (caller : Address) {s : State τ} (hr : VaultReached W D m s)
    (value : U256) (input : Bytes) (s' : State τ) (data : Bytes) (h : vault W D m caller s value input = .returned s' data)
    (hne : s'.world ≠ s.world) :
    (∃ a : U256, Takes W s.world s.self_ s.asset
        (message "transferFrom(address,address,uint256)" [.address caller, .address s.self_, .uint256 a]) s'.world) ∨
    ∃ (n : Nat) (A a : U256) (r : Address), Reports W D s.world n s.self_ s.asset A ∧
      Takes W s.world s.self_ s.asset (message "transfer(address,uint256)" [.address r, .uint256 a]) s'.world ∧
      s'.shares.totalSupply.toNat ≤ s.shares.totalSupply.toNat ∧
      a.toNat * (s.shares.totalSupply.toNat + 10 ^ s.offset.toNat) ≤
        (s.shares.totalSupply.toNat - s'.shares.totalSupply.toNat) * (A.toNat + 1) := by
  have hs := reached_sum hr
  rcases C105_vault_no_other_effect W D m caller s value input with ⟨d, h1⟩ | ⟨d, h1⟩ | ⟨op, s1, r, he, h1, _, _⟩
  · rw [h1] at h; cases h
  · rw [h1] at h; cases h; exact absurd rfl hne
  · rw [h1] at h
    injection h with e _
    subst e
    cases op with
    | deposit a r =>
      obtain ⟨n, h, -⟩ := numbered_eq_ok.mp he
      obtain ⟨t, u, h4, -, rfl⟩ := depositInternal_ok.mp (deposit_ok.mp h).2
      exact .inl ⟨a, h4⟩
    | mint x r =>
      obtain ⟨n, h, -⟩ := numbered_eq_ok.mp he
      obtain ⟨t, u, h4, -, rfl⟩ := depositInternal_ok.mp (mint_ok.mp h).2
      exact .inl ⟨n, h4⟩
    | withdraw a r o =>
      obtain ⟨n, h, -⟩ := numbered_eq_ok.mp he
      obtain ⟨_, _, _, h2, h⟩ := withdraw_ok.mp h
      obtain ⟨A, hA, hF, hx⟩ := sharesCeil.mp h2
      obtain ⟨u1, u2, t, k1, k2, k3, rfl⟩ := withdrawInternal_ok.mp h
      have e := (destroyed_of_burn hs k1 k2).supply
      refine .inr ⟨1, A, a, r, hA, k3, ?_, ?_⟩
      · show u2.totalSupply.toNat ≤ _
        omega
      · show _ ≤ (s.shares.totalSupply.toNat - u2.totalSupply.toNat) * _
        rw [← e, Nat.add_sub_cancel_left]
        rw [e]
        exact hx.1
    | redeem x r o =>
      obtain ⟨n, h, -⟩ := numbered_eq_ok.mp he
      obtain ⟨_, h2, h⟩ := redeem_ok.mp h
      obtain ⟨A, hA, hF, hx⟩ := assetsFloor.mp h2
      obtain ⟨u1, u2, t, k1, k2, k3, rfl⟩ := withdrawInternal_ok.mp h
      have e := (destroyed_of_burn hs k1 k2).supply
      refine .inr ⟨0, A, n, r, hA, k3, ?_, ?_⟩
      · show u2.totalSupply.toNat ≤ _
        omega
      · show _ ≤ (s.shares.totalSupply.toNat - u2.totalSupply.toNat) * _
        rw [← e, Nat.add_sub_cancel_left]
        rw [e]
        exact hx.1
    | transfer dst v =>
      obtain ⟨u, hu, rfl⟩ := inner_eq_ok.mp (giving_eq_ok.mp he).1
      exact absurd rfl hne
    | transferFrom src dst v =>
      obtain ⟨u, hu, rfl⟩ := inner_eq_ok.mp (giving_eq_ok.mp he).1
      exact absurd rfl hne
    | approve p v =>
      obtain ⟨u, hu, rfl⟩ := inner_eq_ok.mp (giving_eq_ok.mp he).1
      exact absurd rfl hne

end Verif.Props.Vault
