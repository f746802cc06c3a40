import Verif.Props.Logs
/-! # C96: what the raw logs tell -/

namespace Verif.Props.Logs
open Verif Verif.Logs
open Verif.Interfaces (SolType signature)
open Verif.Spec.Keccak (keccak256)
open Verif.Spec.Revert (addr)
open Verif.Props.Revert (be32_word)
open Verif.Spec.Logs

local macro "declared" : tactic => `(tactic| (simp only [Declared, erc20, erc721, erc1155, uri, metadataUpdate, consecutive,
  ownable, accessControl, pausable, erc4626, vesting, List.map_cons, List.map_nil, Val.type]; decide))

/-- **C96** Every event the model emits is one of the declared ones. -/
theorem C96_all_declared :
    (∀ e, Declared (erc20 e)) ∧ (∀ e, Declared (erc721 e)) ∧ (∀ e, Declared (erc1155 e)) ∧ (∀ e, Declared (uri e)) ∧
    (∀ id, Declared (metadataUpdate id)) ∧ (∀ e, Declared (consecutive e)) ∧ (∀ e, Declared (ownable e)) ∧
    (∀ e, Declared (accessControl e)) ∧ (∀ e, Declared (pausable e)) ∧ (∀ e, Declared (erc4626 e)) ∧
    (∀ e, Declared (vesting e)) := by
  refine ⟨?_, ?_, ?_, ?_, ?_, ?_, ?_, ?_, ?_, ?_, ?_⟩ <;> intro e <;> (try cases e) <;> declared

theorem fits_of_static {e : SolEvent} (h : ∀ p ∈ e.params, p.val.tail = none) : Fits e := by
  intro p hp
  have := h p hp
  obtain ⟨i, v⟩ := p
  cases v <;> simp_all [Val.tail, FitsVal]

theorem erc20_fits (e : Erc20.Event) : Fits (erc20 e) :=
  fits_of_static (by cases e <;> simp [erc20, Val.tail])

theorem erc721_fits (e : Erc721.Event) : Fits (erc721 e) :=
  fits_of_static (by cases e <;> simp [erc721, Val.tail])

theorem erc20_inj {e f : Erc20.Event} (h : erc20 e = erc20 f) : e = f := by
  cases e <;> cases f <;> simp_all [erc20]

theorem erc721_inj {e f : Erc721.Event} (h : erc721 e = erc721 f) : e = f := by
  cases e <;> cases f <;> simp_all [erc721]

theorem erc1155_inj {e f : Erc1155.Event} (h : erc1155 e = erc1155 f) : e = f := by
  cases e <;> cases f <;> simp_all [erc1155]

/-! ## An ERC-20 token and an ERC-721 token can be told apart -/

/-- **C96** `Transfer` has the same first topic in both token standards, but no log of an ERC-20 token is a log of an
ERC-721 token. -/
theorem C96_erc20_not_erc721 (e : Erc20.Event) (f : Erc721.Event) : toLog keccak256 (erc20 e) ≠ toLog keccak256 (erc721 f) := by
  intro h
  have := C96_distinguishable (C96_all_declared.1 e) (C96_all_declared.2.1 f) (erc20_fits e) (erc721_fits f) h
  cases e <;> cases f <;> simp_all [erc20, erc721]

/-! ## Numbers -/

theorem number_bytes (x : Nat) : ∀ (n acc : Nat),
    ((List.range n).map fun i => BitVec.ofNat 8 (x / 256 ^ (n - 1 - i))).foldl (fun m (b : BitVec 8) => 256 * m + b.toNat) acc =
      acc * 256 ^ n + x % 256 ^ n
  | 0, acc => by simp [Nat.mod_one]
  | n + 1, acc => by
    rw [List.range_succ_eq_map, List.map_cons, List.foldl_cons, List.map_map]
    have e : ((fun i => BitVec.ofNat 8 (x / 256 ^ (n + 1 - 1 - i))) ∘ Nat.succ) =
        fun i => BitVec.ofNat 8 (x / 256 ^ (n - 1 - i)) := by
      funext i
      show BitVec.ofNat 8 (x / 256 ^ (n + 1 - 1 - (i + 1))) = _
      rw [show n + 1 - 1 - (i + 1) = n - 1 - i by omega]
    have hm : x % 256 ^ (n + 1) = x % 256 ^ n + 256 ^ n * (x / 256 ^ n % 256) := Nat.mod_pow_succ
    rw [e, number_bytes x n, BitVec.toNat_ofNat, show n + 1 - 1 - 0 = n by omega, hm,
      show (256 : Nat) ^ (n + 1) = 256 ^ n * 256 from Nat.pow_succ _ _, show 2 ^ 8 = 256 from rfl]
    ring

theorem number_word (v : U256) : number (Spec.Revert.word v) = v.toNat := by
  unfold number Spec.Revert.word
  have := number_bytes v.toNat 32 0
  rw [Nat.zero_mul, Nat.zero_add, Nat.mod_eq_of_lt (by have := v.isLt; omega)] at this
  exact this

theorem addr_inj {a b : Address} : addr a = addr b ↔ a = b := by
  constructor
  · intro h
    rw [← setWidth_addr, ← setWidth_addr] at h
    exact abiAddress_inj (congrArg be32 h)
  · rintro rfl; rfl

private theorem published {p : String × BitVec 256} (h : p ∈ publishedTopics) : eventHash keccak256 p.1 = p.2 :=
  C96_published_topics p h

theorem transfer_hash : eventHash keccak256 "Transfer(address,address,uint256)" =
    0xddf252ad1be2c89b69c2b068fc378daa952ba7f163c4a11628f55a4df523b3ef#256 :=
  published (p := ("Transfer(address,address,uint256)", _)) (by simp [publishedTopics])

theorem approval_hash : eventHash keccak256 "Approval(address,address,uint256)" =
    0x8c5be1e5ebec7d5bd14f71427d1e84f3dd0314c0f7b2291e5b200ac8c7c3b925#256 :=
  published (p := ("Approval(address,address,uint256)", _)) (by simp [publishedTopics])

theorem granted_hash : eventHash keccak256 "RoleGranted(bytes32,address,address)" =
    0x2f8788117e7eff1d82e926ec794901d17c78024a50270940304540a733656f0d#256 :=
  published (p := ("RoleGranted(bytes32,address,address)", _)) (by simp [publishedTopics])

theorem revoked_hash : eventHash keccak256 "RoleRevoked(bytes32,address,address)" =
    0xf6391f5c32d9c69d2a47ea670b442974b53935d1edc7fd64eb21e047a839171b#256 :=
  published (p := ("RoleRevoked(bytes32,address,address)", _)) (by simp [publishedTopics])

theorem admin_hash : eventHash keccak256 "RoleAdminChanged(bytes32,bytes32,bytes32)" =
    0xbd79b86ffe0ab8e8776151514217cd7cacd52c909f66475c3af44e129f0b00ff#256 :=
  published (p := ("RoleAdminChanged(bytes32,bytes32,bytes32)", _)) (by simp [publishedTopics])

/-! ## ERC-20 balances from raw logs -/

theorem tokenBalance_replay (es : List Erc20.Event) (a : Address) :
    tokenBalance (es.map fun e => toLog keccak256 (erc20 e)) a = Spec.Erc20.replay es a := by
  induction es with
  | nil => rfl
  | cons e es ih =>
    unfold tokenBalance at ih ⊢
    rw [List.map_cons, List.map_cons, List.sum_cons, ih]
    cases e with
    | transfer src dst v =>
      rw [(C96_erc20 keccak256 src dst v).1, transfer_hash]
      simp only [if_true, number_word, addr_inj, Spec.Erc20.replay]
    | approval o sp v =>
      rw [(C96_erc20 keccak256 o sp v).2, approval_hash]
      simp only [Spec.Erc20.replay]
      rw [if_neg (by decide), Int.zero_add]

/-- **C96** The raw logs of an ERC-20 token, after any history, give every balance and the supply (what left the zero
address). -/
theorem C96_erc20_indexer (ops : List (Address × Erc20.Call)) :
    let logs := (Erc20.run Erc20.init ops).log.map fun e => toLog keccak256 (erc20 e)
    (∀ a, a ≠ ZERO → ((Erc20.balanceOf (Erc20.run Erc20.init ops) a).toNat : Int) = tokenBalance logs a) ∧
    ((Erc20.totalSupplyOf (Erc20.run Erc20.init ops)).toNat : Int) = - tokenBalance logs ZERO := by
  intro logs
  have h := Verif.Props.C08_events_replay ops
  constructor
  · intro a ha
    rw [h.1 a ha, tokenBalance_replay]
  · rw [h.2, tokenBalance_replay]

/-! ## ERC-721 owners from raw logs -/

theorem tokenOwner_replay (es : List Erc721.Event) (id : U256) (l : Spec.Erc721.Ledger) :
    (es.map fun e => toLog keccak256 (erc721 e)).foldl (fun o l => match l.topics with
      | [t, _, dst, i] =>
        if t = 0xddf252ad1be2c89b69c2b068fc378daa952ba7f163c4a11628f55a4df523b3ef#256 ∧ i = id then
          (if dst = 0#256 then none else some (BitVec.ofNat 160 dst.toNat))
        else o
      | _ => o) (l.owner id) = (es.foldl Spec.Erc721.Ledger.apply l).owner id := by
  induction es generalizing l with
  | nil => rfl
  | cons e es ih =>
    rw [List.map_cons, List.foldl_cons, List.foldl_cons, ← ih]
    congr 1
    cases e with
    | transfer src dst i =>
      rw [(C96_erc721 keccak256 src dst i true).1, transfer_hash]
      simp only [true_and, Spec.Erc721.Ledger.apply, Spec.Erc721.nobody, eq_comm (a := i)]
      split
      · have hz : addr dst = 0#256 ↔ dst = ZERO := by
          rw [show (0#256 : U256) = addr ZERO from rfl, addr_inj]
        simp only [hz]
        split
        · rfl
        · congr 1
          apply BitVec.eq_of_toNat_eq
          unfold addr
          rw [BitVec.toNat_ofNat, BitVec.toNat_ofNat, Nat.mod_eq_of_lt (by have := dst.isLt; omega : dst.toNat < 2 ^ 256),
            Nat.mod_eq_of_lt dst.isLt]
      · rfl
    | approval o a i =>
      rw [(C96_erc721 keccak256 o a i true).2.1, approval_hash]
      simp only [Spec.Erc721.Ledger.apply]
      rw [if_neg (by intro h; exact absurd h.1 (by decide))]
    | approvalForAll o p b =>
      rw [(C96_erc721 keccak256 o p 0 b).2.2]
      rfl

/-- **C96** The raw logs of an ERC-721 token, after any history, give the owner of every token. -/
theorem C96_erc721_indexer (txs : List Erc721.Tx) (id : U256) :
    tokenOwner ((Erc721.run Erc721.init txs).log.map fun e => toLog keccak256 (erc721 e)) id =
      Spec.Erc721.owner? (Erc721.run Erc721.init txs) id := by
  rw [← (Verif.Props.Erc721.C51_events_replay txs id ZERO ZERO).1]
  exact tokenOwner_replay _ id Spec.Erc721.Ledger.empty

/-! ## Role members from raw logs -/

theorem roleMember_replay (es : List AccessControl.Event) (r : B256) (a : Address) :
    roleMember (es.map fun e => toLog keccak256 (accessControl e)) r a = Spec.AccessControl.memberByLog r a es := by
  unfold roleMember Spec.AccessControl.memberByLog
  rw [List.foldl_map]
  congr 1
  funext b e
  · cases e with
    | roleGranted r' a' s =>
      rw [(C96_access keccak256 a' s r' 0 0).2.2.2.1, granted_hash]
      simp only [addr_inj, if_true]
    | roleRevoked r' a' s =>
      rw [(C96_access keccak256 a' s r' 0 0).2.2.2.2.1, revoked_hash]
      simp only [addr_inj]
      split
      · rw [if_neg (by decide), if_pos trivial]
      · rfl
    | roleAdminChanged r' p n =>
      rw [(C96_access keccak256 0 0 r' p n).2.2.1, admin_hash]
      simp only
      split
      · rw [if_neg (by decide), if_neg (by decide)]
      · rfl

/-- **C96** The raw logs of an access-controlled contract, after any history, give the members of every role. -/
theorem C96_roles_indexer (acts : List AccessControl.Act) (r : B256) (a : Address) :
    roleMember ((AccessControl.runAct AccessControl.init acts).log.map fun e => toLog keccak256 (accessControl e)) r a =
      AccessControl.hasRole (AccessControl.runAct AccessControl.init acts) r a := by
  rw [roleMember_replay]
  exact ((Verif.Props.Access.C39_log_replay acts r a).1).symm

/-! ## ERC-1155 balances are determined by the raw logs -/

/-- **C96** Two ERC-1155 tokens with the same raw logs have the same balances, whatever their histories. -/
theorem C96_erc1155_logs_determine {s t : Erc1155.State} (hs : Spec.Erc1155.Reachable s) (ht : Spec.Erc1155.Reachable t)
    (fs : ∀ e ∈ s.log, Fits (erc1155 e)) (ft : ∀ e ∈ t.log, Fits (erc1155 e))
    (h : (s.log.map fun e => toLog keccak256 (erc1155 e)) = t.log.map fun e => toLog keccak256 (erc1155 e))
    (a : Address) (id : U256) : Erc1155.balanceOf s a id = Erc1155.balanceOf t a id := by
  have hl : s.log = t.log := by
    have key : ∀ (l m : List Erc1155.Event), (∀ e ∈ l, Fits (erc1155 e)) → (∀ e ∈ m, Fits (erc1155 e)) →
        (l.map fun e => toLog keccak256 (erc1155 e)) = m.map (fun e => toLog keccak256 (erc1155 e)) → l = m := by
      intro l
      induction l with
      | nil => intro m _ _ h; cases m with
        | nil => rfl
        | cons y m => simp at h
      | cons x l ih => intro m hl hm h; cases m with
        | nil => simp at h
        | cons y m =>
          rw [List.map_cons, List.map_cons, List.cons.injEq] at h
          have := C96_distinguishable (C96_all_declared.2.2.1 x) (C96_all_declared.2.2.1 y) (hl x List.mem_cons_self)
            (hm y List.mem_cons_self) h.1
          rw [erc1155_inj this, ih m (fun e he => hl e (List.mem_cons_of_mem _ he))
            (fun e he => hm e (List.mem_cons_of_mem _ he)) h.2]
    exact key _ _ fs ft h
  have h1 := Erc1155.Props.C55_balance_matches_log hs a id
  have h2 := Erc1155.Props.C55_balance_matches_log ht a id
  rw [hl] at h1
  by_cases ha : a = ZERO
  · rw [ha, h1.2, h2.2]
  · apply BitVec.eq_of_toNat_eq
    have := h1.1 ha
    have := h2.1 ha
    omega

/-! ## Concrete cases -/

section Examples
open Verif.Props (alice bob sampleOps)

/-- Some logs of a token in use, and what is read out of them: account A has 90. -/
example : tokenBalance ((Erc20.run Erc20.init sampleOps).log.map fun e => toLog keccak256 (erc20 e)) alice = 90 := by
  rw [tokenBalance_replay]; decide

/-- Mint to account 1, who sends the token to account 4: the log says so. -/
example : tokenOwner ((Erc721.run Erc721.init [⟨9#160, fun _ => none, .inr (.mint 1#160 10#256)⟩,
    ⟨1#160, fun _ => none, .inl (.transferFrom 1#160 4#160 10#256)⟩]).log.map fun e => toLog keccak256 (erc721 e)) 10#256 =
    some 4#160 := by
  rw [C96_erc721_indexer]; decide +kernel

example : Spec.Erc1155.Reachable Erc1155.Props.s1 ∧ (∀ e ∈ Erc1155.Props.s1.log, Fits (erc1155 e)) := by
  refine ⟨⟨_, rfl⟩, ?_⟩
  have h : Erc1155.Props.s1.log.all (fun e => match e with
      | .transferBatch _ _ _ ids vs => ids.length < 2 ^ 256 ∧ vs.length < 2 ^ 256
      | _ => true) = true := by decide +kernel
  intro e he
  have := List.all_eq_true.mp h e he
  cases e with
  | transferBatch op a b ids vs =>
    intro p hp
    simp only [decide_eq_true_eq] at this
    simp only [erc1155, List.mem_cons, List.not_mem_nil, or_false] at hp
    rcases hp with rfl | rfl | rfl | rfl | rfl
    · trivial
    · trivial
    · trivial
    · exact this.1
    · exact this.2
  | _ => exact fits_of_static (by simp [erc1155, Val.tail])

/-- A URI of 33 bytes takes two words behind its length, the second padded with 31 zeros. -/
example : (toLog keccak256 (uri ⟨List.replicate 33 'x', 1#256⟩)).data.length = 128 := by
  rw [(C96_metadata keccak256 _ _).1]; decide +kernel

/-- `é` is two bytes in UTF-8. -/
example : utf8 ['é'] = [0xC3#8, 0xA9#8] := by decide +kernel

end Examples

end Verif.Props.Logs
