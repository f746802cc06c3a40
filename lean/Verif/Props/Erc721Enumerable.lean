import Verif.Proofs.Erc721Enumerable
import Verif.Spec.Erc721Enumerable
/-! # C52: ERC-721 enumeration -/

namespace Verif.Props.Enumerable
open Verif.Enumerable Verif.Spec.Enumerable

theorem isSelf_iff (c : Call) : SelfTransfer c ↔ IsSelfTransfer c := by
  cases c <;> simp [SelfTransfer, IsSelfTransfer]

theorem inv_of_reachable {cap : Nat} (hcap : cap < 2 ^ 256) {s : State} (h : Reachable cap s) :
    Inv cap s := by
  obtain ⟨txs, rfl⟩ := h; exact inv_run hcap txs

theorem invO_of_reachable {cap : Nat} (hcap : cap < 2 ^ 256) {s : State} (h : ReachableNoSelf cap s) :
    Inv cap s ∧ InvO s := by
  obtain ⟨txs, hn, rfl⟩ := h
  exact ⟨inv_run hcap txs, invO_run hcap txs fun tx ht e => hn tx ht ((isSelf_iff _).mp e)⟩

theorem owner?_some {s : State} {id : U256} {a : Address} :
    owner? s id = some a ↔ s.erc721.owners id = a ∧ a ≠ ZERO := by
  unfold owner?
  rw [Erc721.owner?_eq, Erc721.nobody_some]

theorem owner?_ne_none {s : State} {id : U256} : owner? s id ≠ none ↔ s.erc721.owners id ≠ ZERO := by
  unfold owner?
  rw [Erc721.owner?_eq, ne_eq, Erc721.nobody_none]

theorem tokenByIndex_ok {l : Lists} {i id : U256} :
    tokenByIndex l i = .ok id ↔ l.allTokens[i.toNat]? = some id := by
  unfold tokenByIndex
  cases h : l.allTokens[i.toNat]? <;> simp

/-- **C52** In every reachable state `total_supply` is the number of existing tokens. -/
theorem C52_total_supply (cap : Nat) (hcap : cap < 2 ^ 256) (s : State) (hs : Reachable cap s) :
    (totalSupply s.lists).toNat = tokens s := by
  have hi := inv_of_reachable hcap hs
  rw [totalSupply_toNat hcap hi, ← List.toFinset_card_of_nodup hi.ae.nodup]
  have : (Finset.univ.filter fun id : U256 => owner? s id ≠ none) = s.lists.allTokens.toFinset := by
    ext id
    rw [Finset.mem_filter, List.mem_toFinset, hi.ae.mem_iff, owner?_ne_none]
    exact ⟨fun h => h.2, fun h => ⟨Finset.mem_univ _, h⟩⟩
  unfold tokens
  rw [this]

/-- **C52** Every existing token is listed at exactly one index below `total_supply`. -/
theorem C52_each_token_listed_once (cap : Nat) (hcap : cap < 2 ^ 256) (s : State) (hs : Reachable cap s)
    (id : U256) (hid : owner? s id ≠ none) :
    ∃ i : U256, i.toNat < (totalSupply s.lists).toNat ∧ tokenByIndex s.lists i = .ok id ∧
      ∀ j, tokenByIndex s.lists j = .ok id → j = i := by
  have hi := inv_of_reachable hcap hs
  have ht := hi.ae.tok id (owner?_ne_none.mp hid)
  refine ⟨s.lists.allTokensIndex id, ?_, tokenByIndex_ok.mpr ht, fun j hj => ?_⟩
  · rw [totalSupply_toNat hcap hi]
    by_contra hge
    rw [List.getElem?_eq_none (by omega)] at ht; cases ht
  · exact BitVec.eq_of_toNat_eq (hi.ae.slot _ _ (tokenByIndex_ok.mp hj)).2.symm

/-- **C52** Every index below `total_supply` names an existing token, every other index is an error. -/
theorem C52_every_index (cap : Nat) (hcap : cap < 2 ^ 256) (s : State) (hs : Reachable cap s) (i : U256) :
    (i.toNat < (totalSupply s.lists).toNat →
      ∃ id, tokenByIndex s.lists i = .ok id ∧ owner? s id ≠ none) ∧
    (¬ i.toNat < (totalSupply s.lists).toNat →
      tokenByIndex s.lists i = .error (.outOfBoundsIndex ZERO i)) := by
  have hi := inv_of_reachable hcap hs
  rw [totalSupply_toNat hcap hi]
  constructor
  · intro h
    refine ⟨s.lists.allTokens[i.toNat], ?_, ?_⟩
    · rw [tokenByIndex_ok, List.getElem?_eq_getElem h]
    · rw [owner?_ne_none]
      exact (hi.ae.slot i.toNat _ (List.getElem?_eq_getElem h)).1
  · intro h
    unfold tokenByIndex
    rw [List.getElem?_eq_none (by omega)]

theorem bal?_eq {cap : Nat} (hcap : cap < 2 ^ 256) {s : State} (h : Inv cap s) {a : Address}
    (ha : a ≠ ZERO) : bal? s a = some (Erc721.cnt s.erc721.owners a) := by
  unfold bal? Spec.Erc721.bal? Erc721.balanceOf
  rw [if_neg ha]
  show some (s.erc721.balances a).toNat = _
  rw [h.bal hcap ha]

/-- **C52** In every state reachable without self-transfers, every token of `a` other than token 0 is
listed at exactly one of `a`'s indices, and that index is below `balance_of(a)`.
Partial: `C52_zero_id_not_listed` and `C52_self_transfer_corrupts` show that both restrictions are
needed for the code as written. -/
theorem C52_each_owned_token_listed_once_partial (cap : Nat) (hcap : cap < 2 ^ 256) (s : State)
    (hs : ReachableNoSelf cap s) (a : Address) (id : U256) (hown : owner? s id = some a)
    (hid : id ≠ 0#256) :
    ∃ (n : Nat) (i : U256), bal? s a = some n ∧ i.toNat < n ∧
      tokenOfOwnerByIndex s.lists a i = .ok id ∧
      ∀ j, tokenOfOwnerByIndex s.lists a j = .ok id → j = i := by
  obtain ⟨hi, ho⟩ := invO_of_reachable hcap hs
  obtain ⟨rfl, ha⟩ := owner?_some.mp hown
  obtain ⟨t1, t2⟩ := ho.tok id ha
  refine ⟨_, s.lists.ownedTokensIndex id, bal?_eq hcap hi ha, t1, ?_, fun j hj => ?_⟩
  · unfold tokenOfOwnerByIndex
    dsimp only
    rw [t2, if_neg hid]
  · unfold tokenOfOwnerByIndex at hj
    dsimp only at hj
    by_cases hz : s.lists.ownedTokens (s.erc721.owners id) j = 0#256
    · rw [if_pos hz] at hj; cases hj
    · rw [if_neg hz] at hj
      injection hj with hj
      have hlt : j.toNat < Erc721.cnt s.erc721.owners (s.erc721.owners id) := by
        by_contra hge
        exact hz (ho.rest _ ha j (by omega))
      have := (ho.slot _ ha j hlt).2
      rw [hj] at this; exact this.symm

/-- **C52** In every state reachable without self-transfers, an index below `balance_of(a)` names a token
of `a`, except that the index of token 0 is an error; an index at or above the balance is an error. -/
theorem C52_every_owner_index_partial (cap : Nat) (hcap : cap < 2 ^ 256) (s : State)
    (hs : ReachableNoSelf cap s) (a : Address) (ha : a ≠ ZERO) (i : U256) :
    ∃ n, bal? s a = some n ∧
      (i.toNat < n → (∃ id, tokenOfOwnerByIndex s.lists a i = .ok id ∧ owner? s id = some a) ∨
        (owner? s 0#256 = some a ∧ tokenOfOwnerByIndex s.lists a i = .error (.outOfBoundsIndex a i))) ∧
      (n ≤ i.toNat → tokenOfOwnerByIndex s.lists a i = .error (.outOfBoundsIndex a i)) := by
  obtain ⟨hi, ho⟩ := invO_of_reachable hcap hs
  refine ⟨_, bal?_eq hcap hi ha, fun h => ?_, fun h => ?_⟩
  · obtain ⟨s1, s2⟩ := ho.slot a ha i h
    unfold tokenOfOwnerByIndex
    dsimp only
    by_cases hz : s.lists.ownedTokens a i = 0#256
    · right
      rw [if_pos hz]
      rw [hz] at s1
      exact ⟨owner?_some.mpr ⟨s1, ha⟩, rfl⟩
    · left
      rw [if_neg hz]
      exact ⟨_, rfl, owner?_some.mpr ⟨s1, ha⟩⟩
  · unfold tokenOfOwnerByIndex
    dsimp only
    rw [ho.rest a ha i h, if_pos rfl]

/-- **C52**, negated: whoever owns token 0 has an index below their balance at which the lookup fails. -/
theorem C52_zero_id_not_listed (cap : Nat) (hcap : cap < 2 ^ 256) (s : State)
    (hs : ReachableNoSelf cap s) (a : Address) (hown : owner? s 0#256 = some a) :
    ∃ (n : Nat) (i : U256), bal? s a = some n ∧ i.toNat < n ∧
      tokenOfOwnerByIndex s.lists a i = .error (.outOfBoundsIndex a i) := by
  obtain ⟨hi, ho⟩ := invO_of_reachable hcap hs
  obtain ⟨rfl, ha⟩ := owner?_some.mp hown
  obtain ⟨t1, t2⟩ := ho.tok _ ha
  refine ⟨_, s.lists.ownedTokensIndex 0#256, bal?_eq hcap hi ha, t1, ?_⟩
  unfold tokenOfOwnerByIndex
  dsimp only
  rw [t2, if_pos rfl]

/-- Receivers without code. -/
def noCode : Erc721.Receivers := fun _ => none

/-- Account 7 mints tokens 1 and 2 and transfers token 1 to itself. -/
def selfTransfer : List Tx :=
  [⟨7#160, noCode, .mint 7#160 1#256⟩, ⟨7#160, noCode, .mint 7#160 2#256⟩,
   ⟨7#160, noCode, .transferFrom 7#160 7#160 1#256⟩]

/-- **C52**, negated: after a self-transfer the owner's list can lose a token.  Account 7 owns tokens 1
and 2, `balance_of` says two, but its first index is an error and its second is token 1. -/
theorem C52_self_transfer_corrupts :
    Reachable 100 (run 100 init selfTransfer) ∧
    owner? (run 100 init selfTransfer) 1#256 = some 7#160 ∧
    owner? (run 100 init selfTransfer) 2#256 = some 7#160 ∧
    bal? (run 100 init selfTransfer) 7#160 = some 2 ∧
    tokenOfOwnerByIndex (run 100 init selfTransfer).lists 7#160 0#256
      = .error (.outOfBoundsIndex 7#160 0#256) ∧
    tokenOfOwnerByIndex (run 100 init selfTransfer).lists 7#160 1#256 = .ok 1#256 := by
  refine ⟨⟨selfTransfer, rfl⟩, ?_, ?_, ?_, ?_, ?_⟩ <;> decide +kernel

/-- The hypotheses are met: three tokens, one transferred, one burned. -/
def sample : List Tx :=
  [⟨7#160, noCode, .mint 7#160 0#256⟩, ⟨7#160, noCode, .mint 7#160 2#256⟩,
   ⟨7#160, noCode, .mint 7#160 3#256⟩, ⟨7#160, noCode, .transferFrom 7#160 8#160 2#256⟩,
   ⟨7#160, noCode, .mint 7#160 4#256⟩, ⟨7#160, noCode, .burn 3#256⟩]

example : ReachableNoSelf 100 (run 100 init sample) :=
  ⟨sample, by simp [sample, IsSelfTransfer], rfl⟩

example : owner? (run 100 init sample) 4#256 = some 7#160 ∧ owner? (run 100 init sample) 0#256 = some 7#160 ∧
    owner? (run 100 init sample) 3#256 = none ∧ (totalSupply (run 100 init sample).lists).toNat = 3 ∧
    bal? (run 100 init sample) 7#160 = some 2 ∧
    tokenOfOwnerByIndex (run 100 init sample).lists 7#160 1#256 = .ok 4#256 ∧
    tokenByIndex (run 100 init sample).lists 2#256 = .ok 4#256 := by
  refine ⟨?_, ?_, ?_, ?_, ?_, ?_, ?_⟩ <;> decide +kernel

/-- **C52** A batch mint, which would not enter its tokens into the lists, is refused: the check that guards it passes only for the
empty batch. -/
theorem C52_no_batch_mint (amount : BitVec 128) :
    (checkIncreaseBalance amount = .ok () ↔ amount.toNat = 0) ∧
    (checkIncreaseBalance amount ≠ .ok () → checkIncreaseBalance amount = .error .forbiddenBatchMint) := by
  unfold checkIncreaseBalance
  by_cases h : 0#128 < amount
  · rw [if_pos h]
    have : 0 < amount.toNat := h
    exact ⟨⟨fun h => (by cases h), fun h => by omega⟩, fun _ => rfl⟩
  · rw [if_neg h]
    have : ¬ 0 < amount.toNat := h
    exact ⟨⟨fun _ => by omega, fun _ => rfl⟩, fun h => absurd rfl h⟩

-- one token is already too many
example : checkIncreaseBalance 1#128 ≠ .ok () ∧ checkIncreaseBalance 0#128 = .ok () := by decide

end Verif.Props.Enumerable
