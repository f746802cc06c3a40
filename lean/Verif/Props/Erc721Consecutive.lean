import Verif.Proofs.Erc721Consecutive
/-! # C53: consecutive ERC-721 -/

namespace Verif.Props.Consecutive
open Verif.Consecutive Verif.Spec.Consecutive

/-- **C53** Deployment succeeds exactly if every non-empty batch has a receiver other than the zero address
and at most the maximum size. -/
theorem C53_deploy_succeeds_iff (first mx : U96) (bs : List (Address × U96))
    (hroom : first.toNat + total bs < 2 ^ 96) :
    (∃ s, deploy first mx bs = .ok s) ↔
      ∀ b ∈ bs, b.2 ≠ 0#96 → b.1 ≠ ZERO ∧ b.2.toNat ≤ mx.toNat :=
  mintBatches_ok_iff bs (D_init first mx) hroom

/-- **C53** A batch for the zero address, or above the maximum size, is refused with its own error. -/
theorem C53_batch_errors (first mx : U96) (bs : List (Address × U96)) (s : State)
    (hroom : first.toNat + total bs < 2 ^ 96) (hs : deploy first mx bs = .ok s) (b : U96)
    (hb : first.toNat + total bs + b.toNat < 2 ^ 96) (h0 : b ≠ 0#96) :
    mintConsecutive s ZERO b = .error (.erc721 (.invalidReceiver ZERO)) ∧
    (∀ a, a ≠ ZERO → s.maxBatchSize.toNat < b.toNat → mintConsecutive s a b
      = .error (.exceededMaxBatchMint (b.setWidth 256) (s.maxBatchSize.setWidth 256))) := by
  obtain ⟨h1, _⟩ := mintBatches_effect bs (D_init first mx) hroom hs
  constructor
  · rw [mintConsecutive_eq h1 _ _ hb, if_neg h0, if_pos rfl]
  · intro a ha hm
    rw [mintConsecutive_eq h1 _ _ hb, if_neg h0, if_neg ha, if_pos (by rw [BitVec.lt_def]; exact hm)]

/-- **C53** After deployment `owner_of` gives every id of a batch to that batch's receiver, and no other id
has an owner; in particular batches do not overlap. -/
theorem C53_batches_own_their_ranges (first mx : U96) (bs : List (Address × U96)) (s : State)
    (hroom : first.toNat + total bs < 2 ^ 96) (hs : deploy first mx bs = .ok s) (id : U256) :
    owner? s id = batchOwner first.toNat bs id.toNat := by
  obtain ⟨h1, h2, _⟩ := deploy_effect hroom hs
  rw [(same_of_abs h1).owner id, h2, Erc721.owner?_eq]
  show Spec.Erc721.nobody ((batchOwner first.toNat bs id.toNat).getD ZERO) = _
  have key : ∀ (bs : List (Address × U96)) (n : Nat) (a : Address), batchOwner n bs id.toNat = some a →
      ∃ b ∈ bs, b.2 ≠ 0#96 ∧ b.1 = a := by
    intro bs
    induction bs with
    | nil => intro n a h; cases h
    | cons b bs ih =>
      intro n a h
      unfold batchOwner at h
      split at h
      · rename_i hc
        injection h with h
        refine ⟨b, by simp, ?_, h⟩
        intro e
        rw [e] at hc
        have : (0#96).toNat = 0 := rfl
        omega
      · obtain ⟨c, hc, h1, h2⟩ := ih _ _ h
        exact ⟨c, by simp [hc], h1, h2⟩
  cases hb : batchOwner first.toNat bs id.toNat with
  | none => simp [Spec.Erc721.nobody]
  | some a =>
    obtain ⟨b, hb1, hb2, rfl⟩ := key _ _ _ hb
    have := ((C53_deploy_succeeds_iff first mx bs hroom).mp ⟨s, hs⟩ b hb1 hb2).1
    simp [Spec.Erc721.nobody, this]

/-- **C53** After deployment and any history, every observer (owners, balances, approvals, operators, log)
agrees with a plain ERC-721 in which the same ids had been minted one by one and on which the same
transactions were executed. -/
theorem C53_behaves_as_plain (first mx : U96) (bs : List (Address × U96)) (s : State)
    (hroom : first.toNat + total bs < 2 ^ 96) (hs : deploy first mx bs = .ok s) (txs : List Tx) :
    Same (run s txs) (Erc721.run (plain first bs) (txs.map plainTx)) := by
  obtain ⟨h1, h2, _⟩ := deploy_effect hroom hs
  obtain ⟨h3, h4⟩ := sim_run txs h1
  rw [← h2, ← h4]
  exact same_of_abs h3

/-- **C53** In every such state the next transaction fails exactly when it fails on the plain ERC-721, and
with the same error. -/
theorem C53_same_errors (first mx : U96) (bs : List (Address × U96)) (s : State)
    (hroom : first.toNat + total bs < 2 ^ 96) (hs : deploy first mx bs = .ok s) (txs : List Tx) (tx : Tx)
    (e : Err) :
    exec (run s txs) tx = .error e ↔
      ∃ e', e = .erc721 e' ∧
        Erc721.exec (Erc721.run (plain first bs) (txs.map plainTx)) (plainTx tx) = .error e' := by
  obtain ⟨h1, h2, _⟩ := deploy_effect hroom hs
  obtain ⟨h3, h4⟩ := sim_run txs h1
  rw [← h2, ← h4]
  have hsim := sim_exec h3 tx
  cases hx : exec (run s txs) tx with
  | ok s' =>
    cases hy : Erc721.exec (abs (run s txs)) (plainTx tx) with
    | ok t => simp
    | error e' => rw [hx, hy] at hsim; exact hsim.elim
  | error e0 =>
    cases hy : Erc721.exec (abs (run s txs)) (plainTx tx) with
    | ok t => rw [hx, hy] at hsim; exact hsim.elim
    | error e' =>
      rw [hx, hy] at hsim
      have hsim : e0 = .erc721 e' := hsim
      subst hsim
      constructor
      · intro h; injection h with h; exact ⟨e', h.symm, rfl⟩
      · rintro ⟨e'', rfl, h⟩; injection h with h; rw [h]

/-- **C53** After deployment and any history `balance_of(a)` is the number of ids owned by `a` (unless `a`
owns all `2^256` ids). -/
theorem C53_balance_is_count (first mx : U96) (bs : List (Address × U96)) (s : State)
    (hroom : first.toNat + total bs < 2 ^ 96) (hs : deploy first mx bs = .ok s) (txs : List Tx)
    (a : Address) (ha : a ≠ ZERO) (hsome : ∃ id, owner? (run s txs) id ≠ some a) :
    bal? (run s txs) a
      = some (Finset.univ.filter fun id : U256 => owner? (run s txs) id = some a).card := by
  obtain ⟨h1, h2, hc⟩ := deploy_effect hroom hs
  obtain ⟨h3, h4⟩ := sim_run txs h1
  have hcount := counts_run txs hc
  rw [← h4] at hcount
  have hown : ∀ id, owner? (run s txs) id = Spec.Erc721.owner? (abs (run s txs)) id :=
    (same_of_abs h3).owner
  have hset : (Finset.univ.filter fun id : U256 => owner? (run s txs) id = some a)
      = Finset.univ.filter fun id : U256 => Spec.Erc721.owner? (abs (run s txs)) id = some a :=
    Finset.filter_congr fun id _ => by rw [hown id]
  have howned : (Finset.univ.filter fun id : U256 => owner? (run s txs) id = some a).card
      = Erc721.cnt (abs (run s txs)).owners a := by
    rw [hset]; exact Erc721.owned_eq (abs (run s txs)) ha
  rw [howned]
  have hb : bal? (run s txs) a = some ((abs (run s txs)).balances a).toNat := by
    unfold bal? balanceOf Erc721.balanceOf
    rw [if_neg ha]; rfl
  rw [hb, hcount a ha, BitVec.toNat_ofNat, Nat.mod_eq_of_lt]
  obtain ⟨id, hid⟩ := hsome
  apply Erc721.cnt_lt (id := id)
  intro e
  apply hid
  rw [hown id, Erc721.owner?_eq, Erc721.nobody_some]; exact ⟨e, ha⟩

/-! ### Where the code departs from the property -/

/-- The largest id. -/
def MAX : U96 := BitVec.allOnes 96

/-- A deployment whose only batch ends at `U96::MAX`. -/
def atMax : State := batched (init MAX 1#96) 7#160 1#96

/-- **C53**, negated at the boundary: when a batch ends at `U96::MAX`, `_next_consecutive_id` wraps to zero and
burning a batch token is not recorded.  The burn succeeds and lowers the balance to zero, yet the token
still belongs to its owner. -/
theorem C53_burn_not_recorded_at_max :
    deploy MAX 1#96 [(7#160, 1#96)] = .ok atMax ∧
    ∃ s', burn atMax (MAX.setWidth 256) = .ok s' ∧ owner? s' (MAX.setWidth 256) = some 7#160 ∧
      bal? s' 7#160 = some 0 := by
  have hsorted : Spec.Checkpoints.Sorted atMax.sequentialOwnership := by
    simp [atMax, batched, init, Spec.Checkpoints.Sorted]
  have hown : own atMax (MAX.setWidth 256) = 7#160 := by decide +kernel
  refine ⟨rfl, updatedC atMax ZERO (MAX.setWidth 256), ?_, ?_, ?_⟩
  · unfold burn
    rw [update_eq hsorted, if_pos (Or.inl rfl), hown]
    rfl
  · unfold owner? ownerOf
    rw [requireOwned_eq (by exact hsorted)]
    decide +kernel
  · decide +kernel

/-- A deployment whose only batch runs past `U96::MAX`. -/
def pastMax : State := batched (init MAX 5#96) 7#160 2#96

/-- **C53**, negated at the boundary: a first batch that runs past `U96::MAX` is accepted, its receiver's
balance is two, and no id has an owner. -/
theorem C53_first_batch_wraps :
    deploy MAX 5#96 [(7#160, 2#96)] = .ok pastMax ∧ bal? pastMax 7#160 = some 2 ∧
    ∀ id, owner? pastMax id = none := by
  have hsorted : Spec.Checkpoints.Sorted pastMax.sequentialOwnership := by
    simp [pastMax, batched, init, Spec.Checkpoints.Sorted]
  refine ⟨rfl, by decide +kernel, fun id => ?_⟩
  unfold owner? ownerOf
  rw [requireOwned_eq hsorted]
  have hz : own pastMax id = ZERO := by
    by_cases hlow : id.toNat < MAX.toNat
    · rw [own_low (t := pastMax) hlow]; rfl
    · unfold own
      split
      · rfl
      · rename_i hc
        split
        · rfl
        · apply firstAtOrAfter_none
          intro c hcm
          have hk : c.key.toNat = 0 := by
            have : c ∈ [(⟨init MAX 5#96 |> nextOf |> (· + 2#96 - 1#96), 7#160⟩ : Checkpoints.Checkpoint 96 160)] := hcm
            simp only [List.mem_singleton] at this
            rw [this]; decide +kernel
          push Not at hc
          rw [hk, BitVec.toNat_setWidth, Nat.mod_eq_of_lt hc.2.2]
          have : MAX.toNat = 2 ^ 96 - 1 := by decide +kernel
          omega
  unfold Erc721.requireOwned Erc721.ownerOfInternal
  have : (abs pastMax).owners id = ZERO := hz
  rw [this]
  rfl

/-- A token minted singly, then covered by a batch. -/
def covered : Except Err (U96 × State) := do
  let s ← mint (init 0#96 10#96) 9#160 1#256
  mintConsecutive s 7#160 3#96

/-- **C53**, negated for batches after single mints: nothing enforces that `_mint_consecutive` runs only during
construction (as its documentation claims).  A batch over an id already minted is accepted: account 7's
balance is three although id 1 of its batch still belongs to account 9. -/
theorem C53_late_batch_overlaps :
    ∃ r, covered = .ok r ∧ bal? r.2 7#160 = some 3 ∧ owner? r.2 1#256 = some 9#160 ∧ r.1 = 0#96 := by
  have h0 : Spec.Checkpoints.Sorted (init 0#96 10#96).sequentialOwnership := List.Pairwise.nil
  have hown : own (init 0#96 10#96) 1#256 = ZERO := by decide +kernel
  have hm : mint (init 0#96 10#96) 9#160 1#256 = .ok (updatedC (init 0#96 10#96) 9#160 1#256) := by
    unfold mint
    rw [update_eq h0, if_pos (Or.inl rfl), hown]
    rfl
  refine ⟨(0#96, batched (updatedC (init 0#96 10#96) 9#160 1#256) 7#160 3#96), ?_, ?_, ?_, rfl⟩
  · unfold covered
    rw [hm]
    rfl
  · decide +kernel
  · unfold owner? ownerOf
    rw [requireOwned_eq (by simp [batched, updatedC, init, Spec.Checkpoints.Sorted])]
    decide +kernel

/-! ### The hypotheses are met -/

/-- Two batches with an empty one between them. -/
def sampleBatches : List (Address × U96) := [(7#160, 3#96), (ZERO, 0#96), (8#160, 2#96)]

example : ∃ s, deploy 5#96 10#96 sampleBatches = .ok s ∧ owner? s 6#256 = some 7#160 ∧
    owner? s 9#256 = some 8#160 ∧ owner? s 10#256 = none := by
  have hroom : (5#96).toNat + total sampleBatches < 2 ^ 96 := by decide +kernel
  obtain ⟨s, hs⟩ := (C53_deploy_succeeds_iff 5#96 10#96 sampleBatches hroom).mpr (by simp [sampleBatches, ZERO])
  have h := C53_batches_own_their_ranges _ _ _ s hroom hs
  exact ⟨s, hs, (h _).trans (by decide +kernel), (h _).trans (by decide +kernel),
    (h _).trans (by decide +kernel)⟩

end Verif.Props.Consecutive
