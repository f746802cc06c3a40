import Verif.Props.Vault
import Verif.Props.Calls
/-! # C105: the vault and its asset, both as contracts on bytes -/
namespace Verif.Props.Vault
open Verif Verif.Abi Verif.Outside Verif.Outside.Vault Verif.Proofs.Outside Verif.Proofs.Outside.Vault Verif.Proofs.Contracts
open Verif.Entry (Strings)
open Verif.Spec.Keccak (keccak256)
open Verif.Spec.Contracts Verif.Spec.Outside

/-- The state of `Verif.Erc4626`. -/
def toModel (s : State Erc20.State) : Erc4626.State :=
  { self_ := s.self_, underlyingDecimals := s.underlyingDecimals, offset := s.offset, shares := s.shares, asset := s.world,
    log := s.log }

/-- Back. -/
def ofModel (asset : Address) (s : Erc4626.State) : State Erc20.State :=
  { self_ := s.self_, asset := asset, underlyingDecimals := s.underlyingDecimals, offset := s.offset, shares := s.shares,
    world := s.asset, log := s.log }

theorem to_of (asset : Address) (s : Erc4626.State) : toModel (ofModel asset s) = s := rfl

variable (D : Decoder) (m : Strings)

theorem token_std (t : Erc20.State) (sender asset : Address) :
    (tokenWorld D m asset).token keccak256 t sender asset = SafeErc20.standardToken sender := by
  rw [← Props.Calls.C101_standard_token D m sender]
  have h : (fun t b => (tokenWorld D m asset).send t sender asset b) =
      fun s b => Entry.basicTokenEntry keccak256 D m sender s 0#256 b := by
    funext t b
    unfold World.send tokenWorld
    simp only [decide_true, if_true]
  have g : ∀ (b : Bool) (p p' : Erc20.State → Bytes → Outcome Erc20.State), b = true → p = p' →
      SafeErc20.Token.mk b (Calls.rawToken keccak256 p).call = Calls.rawToken keccak256 p' := by
    rintro _ p _ rfl rfl; rfl
  exact g _ _ _ (decide_eq_true rfl) h

/-- The token answers the vault's question with the balance. -/
theorem reports_std (t : Erc20.State) (n : Nat) (self_ asset : Address) :
    Reports (tokenWorld D m asset) D t n self_ asset (t.balances self_) := by
  rw [← ask_some]
  have h := Props.Calls.C101_balance_read D m self_ self_ t
  unfold World.ask tokenWorld
  simp only [decide_true, if_true]
  cases he : Entry.basicTokenEntry keccak256 D m self_ t 0#256 ((Calls.Message.balanceOf self_).bytes keccak256) with
  | returned t' data => rw [he] at h; exact h
  | reverted data => rw [he] at h; cases h

theorem convShares_std (n : Nat) (s : State Erc20.State) (a : U256) (r : Math.Rounding) :
    convertToSharesInternal (tokenWorld D m s.asset) keccak256 D n s a r =
      lift (Erc4626.convertToSharesInternal (toModel s) a r) :=
  convShares_eq (reports_std D m s.world n s.self_ s.asset) a r

theorem convAssets_std (n : Nat) (s : State Erc20.State) (a : U256) (r : Math.Rounding) :
    convertToAssetsInternal (tokenWorld D m s.asset) keccak256 D n s a r =
      lift (Erc4626.convertToAssetsInternal (toModel s) a r) :=
  convAssets_eq (reports_std D m s.world n s.self_ s.asset) a r

theorem settled_std (x : Erc20.State × Except SafeErc20.Err Unit) :
    settled (fun e => Err.vault (.safeErc20 e)) x = lift (Erc4626.liftSafe x) := by
  obtain ⟨t, e | u⟩ := x <;> rfl

theorem lift_map {α β : Type} (f : α → β) (x : Except Erc4626.Err α) : lift (f <$> x) = f <$> lift x := by cases x <;> rfl

theorem depositInternal_std (s : State Erc20.State) (c r : Address) (a x : U256) :
    depositInternal (tokenWorld D m s.asset) keccak256 s c r a x =
      ofModel s.asset <$> lift (Erc4626.depositInternal (toModel s) c r a x) := by
  unfold depositInternal Erc4626.depositInternal
  rw [token_std, settled_std]
  show (lift (Erc4626.liftSafe (SafeErc20.safeTransferFrom (SafeErc20.standardToken s.self_) s.world c s.self_ a)) >>= _) =
    _ <$> lift (Erc4626.liftSafe (SafeErc20.safeTransferFrom (SafeErc20.standardToken s.self_) s.world c s.self_ a) >>= _)
  cases Erc4626.liftSafe (SafeErc20.safeTransferFrom (SafeErc20.standardToken s.self_) s.world c s.self_ a) with
  | error e => rfl
  | ok t =>
    show (lift (Erc4626.liftErc20 (Erc20.mint s.shares r x)) >>= _) = _ <$> lift (Erc4626.liftErc20 (Erc20.mint s.shares r x) >>= _)
    cases Erc4626.liftErc20 (Erc20.mint s.shares r x) <;> rfl

theorem spendFor_std (s : State Erc20.State) (c o : Address) (x : U256) :
    spendFor s c o x = lift (Erc4626.spendFor (toModel s) c o x) := by
  unfold spendFor Erc4626.spendFor
  split <;> rfl

theorem withdrawInternal_std (s : State Erc20.State) (c r o : Address) (a x : U256) :
    withdrawInternal (tokenWorld D m s.asset) keccak256 s c r o a x =
      ofModel s.asset <$> lift (Erc4626.withdrawInternal (toModel s) c r o a x) := by
  unfold withdrawInternal Erc4626.withdrawInternal
  rw [token_std, settled_std, spendFor_std]
  cases Erc4626.spendFor (toModel s) c o x with
  | error e => rfl
  | ok u1 =>
    show (lift (Erc4626.liftErc20 (Erc20.burnInternal u1 o x)) >>= _) = _ <$> lift (Erc4626.liftErc20 (Erc20.burnInternal u1 o x) >>= _)
    cases Erc4626.liftErc20 (Erc20.burnInternal u1 o x) with
    | error e => rfl
    | ok u2 =>
      show (lift (Erc4626.liftSafe (SafeErc20.safeTransfer (SafeErc20.standardToken s.self_) s.world r a)) >>= _) =
        _ <$> lift (Erc4626.liftSafe (SafeErc20.safeTransfer (SafeErc20.standardToken s.self_) s.world r a) >>= _)
      cases Erc4626.liftSafe (SafeErc20.safeTransfer (SafeErc20.standardToken s.self_) s.world r a) <;> rfl

/-- A number and a state, back. -/
def pair (asset : Address) (p : U256 × Erc4626.State) : U256 × State Erc20.State := (p.1, ofModel asset p.2)

theorem deposit_std (s : State Erc20.State) (c : Address) (a : U256) (r : Address) :
    deposit (tokenWorld D m s.asset) keccak256 D s c a r = pair s.asset <$> lift (Erc4626.deposit (toModel s) c a r) := by
  rw [deposit_eq, convShares_std]
  unfold Erc4626.deposit Erc4626.maxDeposit Erc4626.previewDeposit
  simp only [Erc4626.not_max_lt, if_false]
  cases Erc4626.convertToSharesInternal (toModel s) a .floor with
  | error e => rfl
  | ok x =>
    show (depositInternal _ _ _ _ _ _ _ >>= _) = _ <$> lift (Erc4626.depositInternal (toModel s) c r a x >>= _)
    rw [depositInternal_std]
    cases Erc4626.depositInternal (toModel s) c r a x <;> rfl

theorem mint_std (s : State Erc20.State) (c : Address) (x : U256) (r : Address) :
    mint (tokenWorld D m s.asset) keccak256 D s c x r = pair s.asset <$> lift (Erc4626.mint (toModel s) c x r) := by
  rw [mint_eq, convAssets_std]
  unfold Erc4626.mint Erc4626.maxMint Erc4626.previewMint
  simp only [Erc4626.not_max_lt, if_false]
  cases Erc4626.convertToAssetsInternal (toModel s) x .ceil with
  | error e => rfl
  | ok a =>
    show (depositInternal _ _ _ _ _ _ _ >>= _) = _ <$> lift (Erc4626.depositInternal (toModel s) c r a x >>= _)
    rw [depositInternal_std]
    cases Erc4626.depositInternal (toModel s) c r a x <;> rfl

theorem withdraw_std (s : State Erc20.State) (c : Address) (a : U256) (r o : Address) :
    withdraw (tokenWorld D m s.asset) keccak256 D s c a r o = pair s.asset <$> lift (Erc4626.withdraw (toModel s) c a r o) := by
  unfold withdraw maxWithdraw Erc4626.withdraw Erc4626.maxWithdraw Erc4626.previewWithdraw
  rw [convAssets_std, convShares_std]
  show (lift (Erc4626.convertToAssetsInternal (toModel s) (Erc20.balanceOf s.shares o) .floor) >>= _) =
    _ <$> lift (Erc4626.convertToAssetsInternal (toModel s) (Erc20.balanceOf s.shares o) .floor >>= _)
  cases Erc4626.convertToAssetsInternal (toModel s) (Erc20.balanceOf s.shares o) .floor with
  | error e => rfl
  | ok most =>
    simp only [lift, except_bind_ok]
    split
    · rfl
    · cases Erc4626.convertToSharesInternal (toModel s) a .ceil with
      | error e => rfl
      | ok x =>
        show (withdrawInternal _ _ _ _ _ _ _ _ >>= _) = _ <$> lift (Erc4626.withdrawInternal (toModel s) c r o a x >>= _)
        rw [withdrawInternal_std]
        cases Erc4626.withdrawInternal (toModel s) c r o a x <;> rfl

theorem redeem_std (s : State Erc20.State) (c : Address) (x : U256) (r o : Address) :
    redeem (tokenWorld D m s.asset) keccak256 D s c x r o = pair s.asset <$> lift (Erc4626.redeem (toModel s) c x r o) := by
  unfold redeem Erc4626.redeem Erc4626.maxRedeem Erc4626.previewRedeem
  rw [convAssets_std]
  show (if Erc20.balanceOf s.shares o < x then _ else _) = _ <$> lift (if Erc20.balanceOf s.shares o < x then _ else _)
  split
  · rfl
  · cases Erc4626.convertToAssetsInternal (toModel s) x .floor with
    | error e => rfl
    | ok a =>
      show (withdrawInternal _ _ _ _ _ _ _ _ >>= _) = _ <$> lift (Erc4626.withdrawInternal (toModel s) c r o a x >>= _)
      rw [withdrawInternal_std]
      cases Erc4626.withdrawInternal (toModel s) c r o a x <;> rfl

theorem lifted {α β : Type} {f : α → β} {x : Except Erc4626.Err α} {b : β} (h : f <$> lift x = .ok b) : ∃ a, x = .ok a ∧ b = f a := by
  cases x with
  | error e => cases h
  | ok a => cases h; exact ⟨a, rfl, rfl⟩

/-- A successful operation is the one of `Verif.Erc4626`. -/
theorem exec_std {caller : Address} {s s' : State Erc20.State} {op : Op} {r : List Val} (hc : caller ≠ s.self_)
    (h : exec (tokenWorld D m s.asset) D caller s op = .ok (s', r)) :
    ∃ k, Erc4626.exec (toModel s) (caller, k) = .ok (toModel s') := by
  have hn : ¬ caller = (toModel s).self_ := hc
  have done : ∀ {x : Except Erc4626.Err (U256 × Erc4626.State)} {n : U256}, pair s.asset <$> lift x = .ok (n, s') →
      (x >>= fun p => pure p.2) = .ok (toModel s') := by
    intro x n h
    obtain ⟨⟨y, t⟩, rfl, e⟩ := lifted h
    cases e
    rfl
  have share : ∀ {x : Except Erc20.Err Erc20.State},
      inner (fun e => Err.vault (.erc20 e)) (fun u => { s with shares := u }) x = .ok s' →
      (Erc4626.liftErc20 x >>= fun u => pure { toModel s with shares := u }) = .ok (toModel s') := by
    intro x h
    obtain ⟨u, rfl, rfl⟩ := inner_eq_ok.mp h
    rfl
  cases op with
  | deposit a r =>
    obtain ⟨n, h, -⟩ := numbered_eq_ok.mp h
    refine ⟨.deposit a r, ?_⟩
    unfold Erc4626.exec
    rw [if_neg hn]
    exact done (deposit_std D m s caller a r ▸ h)
  | mint x r =>
    obtain ⟨n, h, -⟩ := numbered_eq_ok.mp h
    refine ⟨.mint x r, ?_⟩
    unfold Erc4626.exec
    rw [if_neg hn]
    exact done (mint_std D m s caller x r ▸ h)
  | withdraw a r o =>
    obtain ⟨n, h, -⟩ := numbered_eq_ok.mp h
    refine ⟨.withdraw a r o, ?_⟩
    unfold Erc4626.exec
    rw [if_neg hn]
    exact done (withdraw_std D m s caller a r o ▸ h)
  | redeem x r o =>
    obtain ⟨n, h, -⟩ := numbered_eq_ok.mp h
    refine ⟨.redeem x r o, ?_⟩
    unfold Erc4626.exec
    rw [if_neg hn]
    exact done (redeem_std D m s caller x r o ▸ h)
  | transfer dst v =>
    refine ⟨.share (.transfer dst v), ?_⟩
    unfold Erc4626.exec
    rw [if_neg hn]
    exact share (giving_eq_ok.mp h).1
  | transferFrom src dst v =>
    refine ⟨.share (.transferFrom src dst v), ?_⟩
    unfold Erc4626.exec
    rw [if_neg hn]
    exact share (giving_eq_ok.mp h).1
  | approve p v =>
    refine ⟨.share (.approve p v), ?_⟩
    unfold Erc4626.exec
    rw [if_neg hn]
    exact share (giving_eq_ok.mp h).1

theorem step_std (mv : Strings) (s : State Erc20.State) (x : Tx) (hc : x.sender ≠ s.self_) :
    ∃ ks, toModel (vaultAfter (tokenWorld D m s.asset) D mv s [x.step D m]) = Erc4626.run (toModel s) ks := by
  have one : ∀ {op t}, Erc4626.exec (toModel s) op = .ok t → t = Erc4626.run (toModel s) [op] := by
    intro op t h
    show t = stepOf Erc4626.exec (toModel s) op
    rw [stepOf_ok h]
  cases x with
  | contract c v i =>
    show ∃ ks, toModel ((vault (tokenWorld D m s.asset) D mv c s v i).after s) = _
    rcases C105_vault_no_other_effect (tokenWorld D m s.asset) D mv c s v i with ⟨d, h⟩ | ⟨d, h⟩ | ⟨op, s', r, he, h, _, _⟩
    · rw [h]; exact ⟨[], rfl⟩
    · rw [h]; exact ⟨[], rfl⟩
    · rw [h]
      obtain ⟨k, hk⟩ := exec_std D m hc he
      exact ⟨[(c, k)], one hk⟩
  | token c v i =>
    show ∃ ks, toModel { s with world := (Entry.basicTokenEntry keccak256 D m c s.world v i).after s.world } = _
    rcases Props.Contracts.BasicTokenContract.C103_basic_token_no_other_effect D m c s.world v i with
      ⟨d, h⟩ | ⟨d, h⟩ | ⟨op, s', r, he, h, _, _⟩
    · have h : Entry.basicTokenEntry keccak256 D m c s.world v i = _ := h
      rw [h]; exact ⟨[], rfl⟩
    · have h : Entry.basicTokenEntry keccak256 D m c s.world v i = _ := h
      rw [h]; exact ⟨[], rfl⟩
    · have h : Entry.basicTokenEntry keccak256 D m c s.world v i = _ := h
      rw [h]
      refine ⟨[(c, .asset op.call)], one ?_⟩
      unfold Erc4626.exec
      rw [if_neg (show ¬ c = (toModel s).self_ from hc)]
      show (Erc4626.liftErc20 (Erc20.exec s.world (c, op.call)) >>= _) = _
      rw [(giving_eq_ok.mp he).1]
      rfl

/-- **C105** The vault and its asset, the token of `examples/basic/token`, both as contracts on bytes: after any list of raw
transactions to the two, from any senders but the vault itself, the two are in a state of the model of C19 to C24, reached by some
list of its operations. -/
theorem C105_system (mv : Strings) (s : State Erc20.State) (txs : List Tx) (h : ∀ x ∈ txs, x.sender ≠ s.self_) :
    ∃ ks, toModel (vaultAfter (tokenWorld D m s.asset) D mv s (txs.map (Tx.step D m))) = Erc4626.run (toModel s) ks := by
  induction txs generalizing s with
  | nil => exact ⟨[], rfl⟩
  | cons x l ih =>
    obtain ⟨ks, hk⟩ := step_std D m mv s x (h x (by simp))
    have hf := C105_fixed (tokenWorld D m s.asset) D mv [x.step D m] s
    simp only at hf
    generalize hs' : vaultAfter (tokenWorld D m s.asset) D mv s [x.step D m] = s' at *
    obtain ⟨ls, hl⟩ := ih s' fun y hy => by rw [hf.1]; exact h y (by simp [hy])
    rw [hf.2.1] at hl
    refine ⟨ks ++ ls, ?_⟩
    have e : vaultAfter (tokenWorld D m s.asset) D mv s ((x :: l).map (Tx.step D m)) =
        vaultAfter (tokenWorld D m s.asset) D mv s' (l.map (Tx.step D m)) := by rw [← hs']; rfl
    rw [e, hl, hk]
    exact (runOf_append _ _ _ _).symm

/-- **C105** Seen from outside, with bytes only: for a new vault over this token, after any transactions `txs` and any further ones
`more`, the answers to `totalAssets` and `totalSupply` satisfy: the rate `(assets + 1) / (supply + 10 ^ offset)` has not fallen. -/
theorem C105_rate (mv : Strings) (self_ asset : Address) (d o : U8) (h0 : self_ ≠ ZERO) (txs more : List Tx)
    (h : ∀ x ∈ txs ++ more, x.sender ≠ self_) (asker asker' : Address) :
    let W := tokenWorld D m asset
    let s := vaultAfter W D mv (newVault self_ asset d o Erc20.init) (txs.map (Tx.step D m))
    let s' := vaultAfter W D mv (newVault self_ asset d o Erc20.init) ((txs ++ more).map (Tx.step D m))
    ∃ A S A' S' : U256,
      answer (vault W D mv) asker s "totalAssets()" [] = some (values [.uint256 A]) ∧
      answer (vault W D mv) asker s "totalSupply()" [] = some (values [.uint256 S]) ∧
      answer (vault W D mv) asker' s' "totalAssets()" [] = some (values [.uint256 A']) ∧
      answer (vault W D mv) asker' s' "totalSupply()" [] = some (values [.uint256 S']) ∧
      (A.toNat + 1) * (S'.toNat + 10 ^ o.toNat) ≤ (A'.toNat + 1) * (S.toNat + 10 ^ o.toNat) := by
  intro W s s'
  have hs := C105_fixed W D mv (txs.map (Tx.step D m)) (newVault self_ asset d o Erc20.init)
  have e : s' = vaultAfter W D mv s (more.map (Tx.step D m)) := by
    show List.foldl _ _ _ = List.foldl _ (List.foldl _ _ _) _
    rw [List.map_append, List.foldl_append]
  obtain ⟨ks, hk⟩ := C105_system D m mv (newVault self_ asset d o Erc20.init) txs fun x hx => h x (by simp [hx])
  have hself : s.self_ = self_ := hs.1
  have hasset : s.asset = asset := hs.2.1
  have hoff : s.offset = o := hs.2.2.1
  obtain ⟨ls, hl⟩ := C105_system D m mv s more fun x hx => by rw [hself]; exact h x (by simp [hx])
  have hs' := C105_fixed W D mv (more.map (Tx.step D m)) s
  simp only [← e] at hs'
  rw [hasset] at hl
  have hr : Spec.Erc4626.Reachable (toModel s) := ⟨self_, d, o, ks, h0, hk⟩
  have rate := Props.Erc4626.C22_history (toModel s) hr ls
  change toModel (vaultAfter W D mv s _) = _ at hl
  rw [← hl, ← e] at rate
  refine ⟨s.world.balances s.self_, s.shares.totalSupply, s'.world.balances s'.self_, s'.shares.totalSupply, ?_, ?_, ?_, ?_, ?_⟩
  · unfold answer
    rw [(C105_questions W D mv asker s (s.world.balances s.self_) (by
      have := reports_std D m s.world 0 s.self_ s.asset
      rw [hasset] at this ⊢; exact this) 0#256 _ 0#160).1.mpr rfl]
    rfl
  · unfold answer
    rw [(C105_vault_views W D mv asker s 0#160 0#160).2.1]; rfl
  · unfold answer
    have ha' : s'.asset = asset := hs'.2.1.trans hasset
    rw [(C105_questions W D mv asker' s' (s'.world.balances s'.self_) (by
      have := reports_std D m s'.world 0 s'.self_ s'.asset
      rw [ha'] at this ⊢; exact this) 0#256 _ 0#160).1.mpr rfl]
    rfl
  · unfold answer
    rw [(C105_vault_views W D mv asker' s' 0#160 0#160).2.1]; rfl
  · have := rate
    unfold Spec.Erc4626.RateLe at this
    have e1 : (toModel s').offset = o := hs'.2.2.1.trans hoff
    have e2 : (toModel s).offset = o := hoff
    unfold Spec.Erc4626.virtualShares at this
    rw [e1, e2] at this
    exact this

/-! ### And every history of the model is one of the two contracts -/

/-- A call of one of the two contracts, by its sender. -/
inductive Msg where
  | vault (caller : Address) (op : Op)
  | token (caller : Address) (op : Props.Contracts.BasicTokenContract.Op)

/-- The call as bytes. -/
def Msg.tx : Msg → Tx
  | .vault c op => .contract c 0#256 (message (abi op).1 (abi op).2)
  | .token c op => .token c 0#256 (message (Props.Contracts.BasicTokenContract.abi op).1 (Props.Contracts.BasicTokenContract.abi op).2)

/-- The call in the model of C19 to C24. -/
def Op.model : Op → Erc4626.Call
  | .deposit a r => .deposit a r
  | .mint x r => .mint x r
  | .withdraw a r o => .withdraw a r o
  | .redeem x r o => .redeem x r o
  | .transfer dst v => .share (.transfer dst v)
  | .transferFrom src dst v => .share (.transferFrom src dst v)
  | .approve p v => .share (.approve p v)

/-- The same, with its sender. -/
def Msg.model : Msg → Address × Erc4626.Call
  | .vault c op => (c, op.model)
  | .token c op => (c, .asset op.call)

theorem after_std (mv : Strings) (s : State Erc20.State) (c : Address) (op : Op) (hc : c ≠ s.self_) :
    (vault (tokenWorld D m s.asset) D mv c s 0#256 (message (abi op).1 (abi op).2)).after s =
      ofModel s.asset (stepOf Erc4626.exec (toModel s) (c, op.model)) := by
  have hn : ¬ c = (toModel s).self_ := hc
  have num : ∀ (k : Erc4626.Call) (x : Except Erc4626.Err (U256 × Erc4626.State)),
      Erc4626.exec (toModel s) (c, k) = (x >>= fun p => pure p.2) →
      (reply (revert s.asset) (numbered (pair s.asset <$> lift x))).after s =
        ofModel s.asset (stepOf Erc4626.exec (toModel s) (c, k)) := by
    intro k x h
    unfold stepOf
    rw [h]
    rcases x with e | ⟨n, t⟩ <;> rfl
  have share : ∀ (k : Erc4626.Call) (x : Except Erc20.Err Erc20.State),
      Erc4626.exec (toModel s) (c, k) = (Erc4626.liftErc20 x >>= fun u => pure { toModel s with shares := u }) →
      (reply (revert s.asset) (giving (inner (fun e => Err.vault (.erc20 e)) (fun u => { s with shares := u }) x) [.bool true])).after s =
        ofModel s.asset (stepOf Erc4626.exec (toModel s) (c, k)) := by
    intro k x h
    unfold stepOf
    rw [h]
    rcases x with e | u <;> rfl
  rw [C105_vault_call]
  cases op with
  | deposit a r =>
    show (reply _ (numbered (deposit _ _ _ _ _ _ _))).after s = _
    rw [deposit_std]; exact num _ _ (by unfold Erc4626.exec; rw [if_neg hn]; rfl)
  | mint x r =>
    show (reply _ (numbered (mint _ _ _ _ _ _ _))).after s = _
    rw [mint_std]; exact num _ _ (by unfold Erc4626.exec; rw [if_neg hn]; rfl)
  | withdraw a r o =>
    show (reply _ (numbered (withdraw _ _ _ _ _ _ _ _))).after s = _
    rw [withdraw_std]; exact num _ _ (by unfold Erc4626.exec; rw [if_neg hn]; rfl)
  | redeem x r o =>
    show (reply _ (numbered (redeem _ _ _ _ _ _ _ _))).after s = _
    rw [redeem_std]; exact num _ _ (by unfold Erc4626.exec; rw [if_neg hn]; rfl)
  | transfer dst v => exact share _ _ (by unfold Erc4626.exec; rw [if_neg hn]; rfl)
  | transferFrom src dst v => exact share _ _ (by unfold Erc4626.exec; rw [if_neg hn]; rfl)
  | approve p v => exact share _ _ (by unfold Erc4626.exec; rw [if_neg hn]; rfl)

set_option maxRecDepth 100000 in
/-- **C105** Any calls of the vault and the token, sent as the ABI defines them by anyone but the vault, have exactly the effect of
the operations of the model of C19 to C24. -/
theorem C105_system_sends (mv : Strings) (s : State Erc20.State) (l : List Msg) (h : ∀ x ∈ l, x.tx.sender ≠ s.self_) :
    vaultAfter (tokenWorld D m s.asset) D mv s ((l.map Msg.tx).map (Tx.step D m)) =
      ofModel s.asset (Erc4626.run (toModel s) (l.map Msg.model)) := by
  induction l generalizing s with
  | nil => rfl
  | cons x l ih =>
    have e : vaultAfter (tokenWorld D m s.asset) D mv s [x.tx.step D m] = ofModel s.asset (stepOf Erc4626.exec (toModel s) x.model) := by
      have hc := h x (by simp)
      cases x with
      | vault c op => exact after_std D m mv s c op hc
      | token c op =>
        have hl : (message (Props.Contracts.BasicTokenContract.abi op).1 (Props.Contracts.BasicTokenContract.abi op).2).length < 2 ^ 256 := by
          cases op <;>
            exact words_lt _ _ (by simp [Props.Contracts.BasicTokenContract.abi, arg]) (by simp [Props.Contracts.BasicTokenContract.abi])
        have hx : Entry.basicTokenEntry keccak256 D m c s.world 0#256 _ = _ :=
          Props.Contracts.BasicTokenContract.C103_basic_token_call D m c s.world op hl
        show ({ s with world := (Entry.basicTokenEntry keccak256 D m c s.world 0#256 _).after s.world } : State Erc20.State) = _
        rw [hx]
        show _ = ofModel s.asset (stepOf Erc4626.exec (toModel s) (c, .asset op.call))
        have he : Erc4626.exec (toModel s) (c, .asset op.call) =
            (Erc4626.liftErc20 (Erc20.exec s.world (c, op.call)) >>= fun t => pure { toModel s with asset := t }) := by
          unfold Erc4626.exec
          rw [if_neg (show ¬ c = (toModel s).self_ from hc)]
          rfl
        unfold stepOf Props.Contracts.BasicTokenContract.exec
        rw [he]
        cases Erc20.exec s.world (c, op.call) <;> rfl
    have hf := C105_fixed (tokenWorld D m s.asset) D mv [x.tx.step D m] s
    simp only at hf
    show vaultAfter (tokenWorld D m s.asset) D mv (vaultAfter (tokenWorld D m s.asset) D mv s [x.tx.step D m])
      ((l.map Msg.tx).map (Tx.step D m)) = _
    generalize hs' : vaultAfter (tokenWorld D m s.asset) D mv s [x.tx.step D m] = s' at *
    have := ih s' fun y hy => by rw [hf.1]; exact h y (by simp [hy])
    rw [hf.2.1, e, to_of] at this
    rw [e]
    exact this

/-! ### The hypotheses are met -/

/-- Alice. -/
def alice : Address := 0xa11ce#160
/-- Bob. -/
def bob : Address := 0xb0b#160
/-- The vault. -/
def me : Address := 0xfa017#160
/-- The asset. -/
def token : Address := 0xa55e7#160

/-- Alice has 100 of the asset, deposits 50 and lets Bob spend 20 shares; 10 are donated; Bob redeems 20 of Alice's shares. -/
def sample : List Msg :=
  [.token alice (.mint alice 100#256), .token alice (.approve me 50#256), .vault alice (.deposit 50#256 alice),
   .vault alice (.approve bob 20#256), .token alice (.transfer me 10#256), .vault bob (.redeem 20#256 bob alice)]

theorem sample_foreign (n : Nat) : ∀ x ∈ sample.take n, x.tx.sender ≠ me := by
  intro x hx
  have hx := List.mem_of_mem_take hx
  simp only [sample, List.mem_cons, List.not_mem_nil, or_false] at hx
  rcases hx with rfl | rfl | rfl | rfl | rfl | rfl <;> (show _ ≠ _) <;> decide

/-- The state after the first `n` of them, with 6 decimals and offset 1. -/
def sampleAfter (mv : Strings) (n : Nat) : State Erc20.State :=
  vaultAfter (tokenWorld D m token) D mv (newVault me token 6#8 1#8 Erc20.init) (((sample.take n).map Msg.tx).map (Tx.step D m))

theorem sample_eq (mv : Strings) (n : Nat) : sampleAfter D m mv n =
    ofModel token (Erc4626.run (Erc4626.init me 6#8 1#8) ((sample.take n).map Msg.model)) :=
  C105_system_sends D m mv (newVault me token 6#8 1#8 Erc20.init) (sample.take n) (sample_foreign n)

-- C105_system, C105_rate: what the contracts answer before and after the donation and Bob's withdrawal
example (mv : Strings) (asker : Address) :
    let W := tokenWorld D m token
    let s := fun n => sampleAfter D m mv n
    answer (vault W D mv) asker (s 4) "totalAssets()" [] = some (values [.uint256 50#256]) ∧
    answer (vault W D mv) asker (s 4) "totalSupply()" [] = some (values [.uint256 500#256]) ∧
    answer (vault W D mv) asker (s 6) "totalAssets()" [] = some (values [.uint256 58#256]) ∧
    answer (vault W D mv) asker (s 6) "totalSupply()" [] = some (values [.uint256 480#256]) ∧
    answer (vault W D mv) asker (s 6) "balanceOf(address)" [.address alice] = some (values [.uint256 480#256]) := by
  intro W s
  have view : ∀ n, (s n).shares = _ ∧ (s n).world.balances (s n).self_ = _ := fun n => by
    refine ⟨?_, ?_⟩
    · exact congrArg (·.shares) (sample_eq D m mv n)
    · exact congrArg (fun x : State Erc20.State => x.world.balances x.self_) (sample_eq D m mv n)
  have ha : ∀ n, (s n).asset = token := fun n => (C105_fixed W D mv _ (newVault me token 6#8 1#8 Erc20.init)).2.1
  have total : ∀ n (x : U256), (s n).world.balances (s n).self_ = x →
      answer (vault W D mv) asker (s n) "totalAssets()" [] = some (values [.uint256 x]) := by
    rintro n x rfl
    unfold answer
    rw [(C105_questions W D mv asker (s n) ((s n).world.balances (s n).self_) (by
      have := reports_std D m (s n).world 0 (s n).self_ (s n).asset
      rw [ha] at this ⊢; exact this) 0#256 _ 0#160).1.mpr rfl]
    rfl
  have supply : ∀ n (x : U256), (s n).shares.totalSupply = x →
      answer (vault W D mv) asker (s n) "totalSupply()" [] = some (values [.uint256 x]) := by
    rintro n x rfl
    unfold answer
    rw [(C105_vault_views W D mv asker (s n) 0#160 0#160).2.1]; rfl
  refine ⟨total 4 _ ?_, supply 4 _ ?_, total 6 _ ?_, supply 6 _ ?_, ?_⟩
  · rw [(view 4).2]; decide +kernel
  · rw [(view 4).1]; decide +kernel
  · rw [(view 6).2]; decide +kernel
  · rw [(view 6).1]; decide +kernel
  · unfold answer
    rw [(C105_vault_views W D mv asker (s 6) alice 0#160).2.2.1, (view 6).1]
    have : (ofModel token (Erc4626.run (Erc4626.init me 6#8 1#8) ((sample.take 6).map Msg.model))).shares.balances alice = 480#256 := by
      decide +kernel
    rw [this]; rfl

/-- A chain whose token answers nothing to a transfer and says that every balance is 7; its state counts the calls. -/
def quiet : World Nat where
  hasCode _ _ := true
  call t _ _ _ := .returned (t + 1) []
  look _ _ _ _ _ := some (values [.uint256 7#256])

/-- Its answer is a number. -/
theorem quiet_reports (t n : Nat) (self_ asset : Address) : Reports quiet D t n self_ asset 7#256 :=
  ⟨rfl, _, rfl, Props.Calls.read_one (v := .uint256 7#256) rfl⟩

-- C105_questions, C105_deposit, C105_shares_are_paid: over this token a deposit of 17 creates 17 * (0 + 1) / (7 + 1) = 2 shares
example : ∃ s', vault quiet D m alice (newVault me token 6#8 0#8 0) 0#256
      (message "deposit(uint256,address)" [.uint256 17#256, .address alice]) = .returned s' (values [.uint256 2#256]) ∧
    s'.world = 1 ∧ s'.shares.balances alice = 2#256 :=
  ⟨_, (C105_deposit quiet D m alice (s := newVault me token 6#8 0#8 0) ⟨_, _, _, _, _, [], rfl⟩ 17#256 alice _ _).mpr
    ⟨7#256, 2#256, 1,
      { Erc20.init with balances := upd Erc20.init.balances alice 2#256, totalSupply := 2#256, log := [.transfer ZERO alice 2#256] },
      quiet_reports D _ _ _ _, by constructor <;> decide, by constructor <;> decide,
      ⟨rfl, [], rfl, .inl rfl⟩, by decide, by decide,
      ⟨by decide, fun a => by
        show (upd _ alice 2#256 a).toNat = 0 + _
        unfold upd
        split <;> rfl, rfl, rfl⟩, rfl, rfl⟩, rfl, by
    show upd Erc20.init.balances alice 2#256 alice = _
    decide +kernel⟩

-- C105_no_answer: an asset without code
example : ∀ A, ¬ Reports (τ := Nat) ⟨fun _ _ => false, fun t _ _ _ => .returned t [], fun _ _ _ _ _ => none⟩ D 0 0 me token A :=
  fun A => C105_no_code _ D 0 0 me token A rfl

end Verif.Props.Vault
