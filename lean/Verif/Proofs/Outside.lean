import Verif.Spec.Outside
import Verif.Proofs.Contracts
import Verif.Proofs.Erc4626
import Verif.Proofs.Erc20
import Verif.Props.SafeErc20
import Verif.Props.Calls
/-!
# Proofs about the contracts that call other contracts
-/
namespace Verif.Proofs.Outside
open Verif Verif.Abi Verif.Outside Verif.Calls
open Verif.Spec.Keccak (keccak256)
open Verif.Spec.Contracts Verif.Spec.Outside
open Verif.Proofs.Contracts Verif.Proofs.Entry
open Verif.Props.Calls (signatureOf bytes_sig)

variable {τ : Type}

/-- The bytes of a message are those of the specification. -/
theorem bytes_message (m : Message) : m.bytes keccak256 = message (signatureOf m) m.args := by
  rw [bytes_sig, encode_values]; rfl

/-- A reply without data is no number. -/
theorem read_nil (D : Decoder) : ∀ A : U256, D.read [.uint256] [] ≠ some [.uint256 A] := by
  intro A h
  have := D.static _ _ _ h (by intro v hv; simp only [List.mem_singleton] at hv; subst hv; exact ⟨_, rfl⟩)
  have := this.length_le
  rw [encode_values, show values [.uint256 A] = Spec.Revert.word A ++ [] ++ [] from rfl] at this
  rw [← Props.Revert.be32_word] at this
  simp [be32_length] at this

theorem read_uint (D : Decoder) (t : τ) (data : Bytes) (A : U256) :
    uintReply D (.returned t data) = some A ↔ D.read [.uint256] data = some [.uint256 A] := by
  unfold uintReply
  simp only
  constructor
  · intro h
    split at h
    · rename_i x hx; cases h; exact hx
    · cases h
  · intro h; rw [h]

/-- What the question for the balance gives. -/
theorem ask_some {W : World τ} {D : Decoder} {t : τ} {n : Nat} {self_ asset : Address} {A : U256} :
    uintReply D (W.ask t n self_ asset ((Message.balanceOf self_).bytes keccak256)) = some A ↔
      Reports W D t n self_ asset A := by
  rw [bytes_message]
  unfold World.ask Reports
  cases hc : W.hasCode t asset with
  | false =>
    simp only [Bool.false_eq_true, if_false, false_and, iff_false]
    rw [read_uint]; exact read_nil D A
  | true =>
    simp only [if_true, true_and]
    show uintReply D (match W.look t n self_ asset (message "balanceOf(address)" [.address self_]) with
      | some data => .returned t data
      | none => .reverted []) = some A ↔ _
    cases hl : W.look t n self_ asset (message "balanceOf(address)" [.address self_]) with
    | none => simp [uintReply]
    | some data => simp only [read_uint, Option.some.injEq, exists_eq_left']

/-- No answer. -/
theorem ask_none {W : World τ} {D : Decoder} {t : τ} {n : Nat} {self_ asset : Address} :
    uintReply D (W.ask t n self_ asset ((Message.balanceOf self_).bytes keccak256)) = none ↔
      ∀ A, ¬ Reports W D t n self_ asset A := by
  rw [Option.eq_none_iff_forall_ne_some]
  exact forall_congr' fun A => not_congr ask_some

theorem reports_unique {W : World τ} {D : Decoder} {t : τ} {n : Nat} {self_ asset : Address} {A B : U256}
    (h : Reports W D t n self_ asset A) (h' : Reports W D t n self_ asset B) : A = B := by
  rw [← ask_some] at h h'
  rw [h] at h'
  exact Option.some.inj h'

/-- When a request of `SafeErc20` is taken. -/
theorem request_ok {W : World τ} {t t' : τ} {sender target : Address} {r : SafeErc20.Req} :
    SafeErc20.callOptionalReturn (W.token keccak256 t sender target) t r = (t', .ok ()) ↔
      Takes W t sender target (message (signatureOf (request r)) (request r).args) t' := by
  rw [Props.SafeErc20.call_ok_iff, ← bytes_message]
  unfold World.token Takes
  simp only [rawToken, World.send]
  refine and_congr_right fun hc => ?_
  rw [if_pos hc]
  cases W.call t sender target ((request r).bytes keccak256) with
  | returned t1 data => simp [and_assoc]
  | reverted data => simp

theorem settled_ok {ε : Type} {err : SafeErc20.Err → ε} {x : τ × Except SafeErc20.Err Unit} {t : τ} :
    settled err x = .ok t ↔ x = (t, .ok ()) := by
  obtain ⟨t, e | u⟩ := x <;> simp [settled]

end Verif.Proofs.Outside

/-! ## The vault -/

namespace Verif.Proofs.Outside.Vault
open Verif Verif.Abi Verif.Outside Verif.Calls Verif.Outside.Vault
open Verif.Spec.Keccak (keccak256)
open Verif.Spec.Contracts Verif.Spec.Outside
open Verif.Proofs.Contracts Verif.Proofs.Outside
open Verif.Math (Rounding mulDiv)

variable {τ : Type}

theorem lift_ok {α : Type} {x : Except Erc4626.Err α} {a : α} : lift x = .ok a ↔ x = .ok a := by
  cases x <;> simp [lift]

/-- The vault of `Verif.Erc4626` with the same shares, whose asset says `A`. -/
def shadow (s : State τ) (A : U256) : Erc4626.State :=
  { self_ := s.self_, underlyingDecimals := s.underlyingDecimals, offset := s.offset, shares := s.shares,
    asset := { Erc20.init with balances := fun _ => A }, log := s.log }

theorem totalAssets_ok {W : World τ} {D : Decoder} {n : Nat} {s : State τ} {A : U256} :
    totalAssets W keccak256 D n s = .ok A ↔ Reports W D s.world n s.self_ s.asset A := by
  rw [← ask_some]
  unfold totalAssets
  cases uintReply D (W.ask s.world n s.self_ s.asset ((Message.balanceOf s.self_).bytes keccak256)) <;> simp

theorem totalAssets_none {W : World τ} {D : Decoder} {n : Nat} {s : State τ}
    (h : ∀ A, ¬ Reports W D s.world n s.self_ s.asset A) :
    totalAssets W keccak256 D n s = .error (.invalidAsset s.asset) := by
  rw [← ask_none] at h
  unfold totalAssets
  rw [h]

theorem orPanic_lift {α : Type} (x : Option α) :
    orPanic (Err.vault .panic) x = lift (orPanic Erc4626.Err.panic x) := by cases x <;> rfl

theorem lift_bind {α β : Type} (x : Except Erc4626.Err α) (f : α → Except Erc4626.Err β) :
    (lift x >>= fun a => lift (f a)) = lift (x >>= f) := by cases x <;> rfl

/-- With an answer, the conversion is that of the vault over a standard asset with this balance. -/
theorem convShares_eq {W : World τ} {D : Decoder} {n : Nat} {s : State τ} {A : U256}
    (h : Reports W D s.world n s.self_ s.asset A) (a : U256) (r : Rounding) :
    convertToSharesInternal W keccak256 D n s a r = lift (Erc4626.convertToSharesInternal (shadow s A) a r) := by
  unfold convertToSharesInternal Erc4626.convertToSharesInternal
  rw [totalAssets_ok.mpr h]
  simp only [orPanic_lift, ← lift_bind]
  rfl

theorem convAssets_eq {W : World τ} {D : Decoder} {n : Nat} {s : State τ} {A : U256}
    (h : Reports W D s.world n s.self_ s.asset A) (x : U256) (r : Rounding) :
    convertToAssetsInternal W keccak256 D n s x r = lift (Erc4626.convertToAssetsInternal (shadow s A) x r) := by
  unfold convertToAssetsInternal Erc4626.convertToAssetsInternal
  rw [totalAssets_ok.mpr h]
  simp only [orPanic_lift, ← lift_bind]
  rfl

theorem convShares_none {W : World τ} {D : Decoder} {n : Nat} {s : State τ}
    (h : ∀ A, ¬ Reports W D s.world n s.self_ s.asset A) (a : U256) (r : Rounding) :
    convertToSharesInternal W keccak256 D n s a r =
      .error (if s.shares.totalSupply.toNat + 10 ^ s.offset.toNat < 2 ^ 256 then .invalidAsset s.asset else .vault .panic) := by
  unfold convertToSharesInternal
  rw [totalAssets_none h]
  by_cases hf : s.shares.totalSupply.toNat + 10 ^ s.offset.toNat < 2 ^ 256
  · rw [if_pos hf]
    obtain ⟨v, hv⟩ := Erc4626.pow10_of_lt (show 10 ^ s.offset.toNat < 2 ^ 256 by omega)
    have h2 := (Erc4626.pow10_some hv).2
    rw [hv]
    have : checkedAdd (Erc20.totalSupplyOf s.shares) v = some (Erc20.totalSupplyOf s.shares + v) := by
      unfold checkedAdd; rw [if_pos (by rw [h2]; exact hf)]
    simp only [orPanic, this, except_bind_ok]
    rfl
  · rw [if_neg hf]
    cases hv : Erc4626.pow10 s.offset with
    | none => rfl
    | some v =>
      have h2 := (Erc4626.pow10_some hv).2
      have : checkedAdd (Erc20.totalSupplyOf s.shares) v = none := by
        unfold checkedAdd; rw [if_neg (by rw [h2]; exact hf)]
      simp only [orPanic, this, except_bind_ok]
      rfl

theorem convAssets_none {W : World τ} {D : Decoder} {n : Nat} {s : State τ}
    (h : ∀ A, ¬ Reports W D s.world n s.self_ s.asset A) (x : U256) (r : Rounding) :
    convertToAssetsInternal W keccak256 D n s x r = .error (.invalidAsset s.asset) := by
  unfold convertToAssetsInternal
  rw [totalAssets_none h]
  rfl

theorem convShares_ok {W : World τ} {D : Decoder} {n : Nat} {s : State τ} {a x : U256} {r : Rounding} :
    convertToSharesInternal W keccak256 D n s a r = .ok x ↔
      ∃ A, Reports W D s.world n s.self_ s.asset A ∧ Fits s A ∧
        (a.toNat * (s.shares.totalSupply.toNat + 10 ^ s.offset.toNat) + Erc4626.rnd r (A.toNat + 1)) / (A.toNat + 1) = x.toNat := by
  by_cases h : ∃ A, Reports W D s.world n s.self_ s.asset A
  · obtain ⟨A, hA⟩ := h
    rw [convShares_eq hA, lift_ok, Erc4626.convShares_ok]
    constructor
    · intro h; exact ⟨A, hA, h⟩
    · rintro ⟨B, hB, h⟩; cases reports_unique hA hB; exact h
  · push Not at h
    rw [convShares_none h]
    simp only [reduceCtorEq, false_iff, not_exists, not_and]
    exact fun A hA => absurd hA (h A)

theorem convAssets_ok {W : World τ} {D : Decoder} {n : Nat} {s : State τ} {a x : U256} {r : Rounding} :
    convertToAssetsInternal W keccak256 D n s a r = .ok x ↔
      ∃ A, Reports W D s.world n s.self_ s.asset A ∧ Fits s A ∧
        (a.toNat * (A.toNat + 1) + Erc4626.rnd r (s.shares.totalSupply.toNat + 10 ^ s.offset.toNat)) /
          (s.shares.totalSupply.toNat + 10 ^ s.offset.toNat) = x.toNat := by
  by_cases h : ∃ A, Reports W D s.world n s.self_ s.asset A
  · obtain ⟨A, hA⟩ := h
    rw [convAssets_eq hA, lift_ok, Erc4626.convAssets_ok]
    constructor
    · intro h; exact ⟨A, hA, h⟩
    · rintro ⟨B, hB, h⟩; cases reports_unique hA hB; exact h
  · push Not at h
    rw [convAssets_none h]
    simp only [reduceCtorEq, false_iff, not_exists, not_and]
    exact fun A hA => absurd hA (h A)

theorem virtual_pos (s : State τ) : 0 < s.shares.totalSupply.toNat + 10 ^ s.offset.toNat := by
  have : 0 < 10 ^ s.offset.toNat := Nat.pow_pos (by norm_num)
  omega

theorem floor_iff {num den x : Nat} (h : 0 < den) : (num + Erc4626.rnd .floor den) / den = x ↔ Floor num den x :=
  Erc4626.floor_char h

theorem ceil_iff {num den x : Nat} (h : 0 < den) : (num + Erc4626.rnd .ceil den) / den = x ↔ Ceil num den x :=
  Props.Math.ceil_char h

theorem sharesFloor {W : World τ} {D : Decoder} {n : Nat} {s : State τ} {a x : U256} :
    convertToSharesInternal W keccak256 D n s a .floor = .ok x ↔
      ∃ A, Reports W D s.world n s.self_ s.asset A ∧ Fits s A ∧
        Floor (a.toNat * (s.shares.totalSupply.toNat + 10 ^ s.offset.toNat)) (A.toNat + 1) x.toNat := by
  rw [convShares_ok]
  exact exists_congr fun A => and_congr_right fun _ => and_congr_right fun _ => floor_iff (by omega)

theorem sharesCeil {W : World τ} {D : Decoder} {n : Nat} {s : State τ} {a x : U256} :
    convertToSharesInternal W keccak256 D n s a .ceil = .ok x ↔
      ∃ A, Reports W D s.world n s.self_ s.asset A ∧ Fits s A ∧
        Ceil (a.toNat * (s.shares.totalSupply.toNat + 10 ^ s.offset.toNat)) (A.toNat + 1) x.toNat := by
  rw [convShares_ok]
  exact exists_congr fun A => and_congr_right fun _ => and_congr_right fun _ => ceil_iff (by omega)

theorem assetsFloor {W : World τ} {D : Decoder} {n : Nat} {s : State τ} {a x : U256} :
    convertToAssetsInternal W keccak256 D n s a .floor = .ok x ↔
      ∃ A, Reports W D s.world n s.self_ s.asset A ∧ Fits s A ∧
        Floor (a.toNat * (A.toNat + 1)) (s.shares.totalSupply.toNat + 10 ^ s.offset.toNat) x.toNat := by
  rw [convAssets_ok]
  exact exists_congr fun A => and_congr_right fun _ => and_congr_right fun _ => floor_iff (virtual_pos s)

theorem assetsCeil {W : World τ} {D : Decoder} {n : Nat} {s : State τ} {a x : U256} :
    convertToAssetsInternal W keccak256 D n s a .ceil = .ok x ↔
      ∃ A, Reports W D s.world n s.self_ s.asset A ∧ Fits s A ∧
        Ceil (a.toNat * (A.toNat + 1)) (s.shares.totalSupply.toNat + 10 ^ s.offset.toNat) x.toNat := by
  rw [convAssets_ok]
  exact exists_congr fun A => and_congr_right fun _ => and_congr_right fun _ => ceil_iff (virtual_pos s)

theorem depositInternal_ok {W : World τ} {s s' : State τ} {caller receiver : Address} {a x : U256} :
    depositInternal W keccak256 s caller receiver a x = .ok s' ↔
      ∃ t u, Takes W s.world s.self_ s.asset
          (message "transferFrom(address,address,uint256)" [.address caller, .address s.self_, .uint256 a]) t ∧
        Erc20.mint s.shares receiver x = .ok u ∧
        s' = { s with world := t, shares := u, log := s.log ++ [.deposit caller receiver a x] } := by
  unfold depositInternal SafeErc20.safeTransferFrom
  simp only [bind_eq_ok, settled_ok, request_ok, lift_ok, Erc4626.liftErc20_ok, pure, Except.pure, Except.ok.injEq]
  constructor
  · rintro ⟨t, h1, u, h2, rfl⟩; exact ⟨t, u, h1, h2, rfl⟩
  · rintro ⟨t, u, h1, h2, rfl⟩; exact ⟨t, h1, u, h2, rfl⟩

/-- What spending an allowance before a withdrawal amounts to. -/
def Spent (s : State τ) (caller owner : Address) (x : U256) (u : Erc20.State) : Prop :=
  if caller = owner then u = s.shares else Erc20.spendAllowance s.shares owner caller x = .ok u

theorem withdrawInternal_ok {W : World τ} {s s' : State τ} {caller receiver owner : Address} {a x : U256} :
    withdrawInternal W keccak256 s caller receiver owner a x = .ok s' ↔
      ∃ u1 u2 t, Spent s caller owner x u1 ∧ Erc20.burnInternal u1 owner x = .ok u2 ∧
        Takes W s.world s.self_ s.asset (message "transfer(address,uint256)" [.address receiver, .uint256 a]) t ∧
        s' = { s with world := t, shares := u2, log := s.log ++ [.withdraw caller receiver owner a x] } := by
  have hs : ∀ u, spendFor s caller owner x = .ok u ↔ Spent s caller owner x u := by
    intro u
    unfold spendFor Spent
    by_cases h : caller = owner
    · simp [h, eq_comm]
    · simp [h, lift_ok, Erc4626.liftErc20_ok]
  unfold withdrawInternal SafeErc20.safeTransfer
  simp only [bind_eq_ok, hs, settled_ok, request_ok, lift_ok, Erc4626.liftErc20_ok, pure, Except.pure, Except.ok.injEq]
  constructor
  · rintro ⟨u1, h1, u2, h2, t, h3, rfl⟩; exact ⟨u1, u2, t, h1, h2, h3, rfl⟩
  · rintro ⟨u1, u2, t, h1, h2, h3, rfl⟩; exact ⟨u1, h1, u2, h2, t, h3, rfl⟩

end Verif.Proofs.Outside.Vault

/-! ## Operations -/

namespace Verif.Proofs.Outside
open Verif Verif.Abi Verif.Outside Verif.Entry
open Verif.Spec.Keccak (keccak256)
open Verif.Spec.Contracts Verif.Spec.Outside
open Verif.Proofs.Contracts

/-- The result of an operation that returns a number. -/
def numbered {σ ε : Type} : Except ε (U256 × σ) → Except ε (σ × List Val)
  | .ok (x, s) => .ok (s, [.uint256 x])
  | .error e => .error e

/-- The result of an operation of the token inside a contract. -/
def inner {σ ε : Type} (err : Erc20.Err → ε) (put : Erc20.State → σ) : Except Erc20.Err Erc20.State → Except ε σ
  | .ok u => .ok (put u)
  | .error e => .error (err e)

theorem number_ok {σ ε : Type} {K : Hash} {rep : ε → Revert.Reply} {x : Except ε (U256 × σ)} {s' : σ} {r : List Val}
    (h : number K rep x = .ok (s', r)) : numbered x = .ok (s', r) := by
  rcases x with e | ⟨y, s⟩
  · cases h
  · exact congrArg Except.ok (Except.ok.inj h)

theorem outcome_number {σ ε : Type} {K : Hash} {rep : ε → Revert.Reply} (x : Except ε (U256 × σ)) :
    outcome (number K rep x) = reply (fun e => ((rep e).data K).getD []) (numbered x) := by
  rcases x with e | ⟨y, s⟩
  · rfl
  · show Outcome.returned _ _ = Outcome.returned _ _; rw [encode_values]

theorem inner_ok {σ ε : Type} {K : Hash} {rep : Erc20.Err → Revert.Reply} {err : Erc20.Err → ε} {put : Erc20.State → σ}
    {x : Except Erc20.Err Erc20.State} {s' : σ} {r0 r : List Val} (h : finish K rep r0 (put <$> x) = .ok (s', r)) :
    giving (inner err put x) r0 = .ok (s', r) := by
  cases x with
  | ok u => exact congrArg Except.ok (Except.ok.inj h)
  | error e => cases h

theorem outcome_inner {σ ε : Type} {K : Hash} {rep : Erc20.Err → Revert.Reply} {err : Erc20.Err → ε} {rep' : ε → Revert.Reply}
    {put : Erc20.State → σ} (h : ∀ e, rep' (err e) = rep e) (x : Except Erc20.Err Erc20.State) (r0 : List Val) :
    outcome (finish K rep r0 (put <$> x)) = reply (fun e => ((rep' e).data K).getD []) (giving (inner err put x) r0) := by
  cases x with
  | ok u => show Outcome.returned _ _ = Outcome.returned _ _; rw [encode_values]
  | error e =>
    show Outcome.reverted (((rep e).data K).getD []) = Outcome.reverted (((rep' (err e)).data K).getD [])
    rw [h]

theorem inner_eq_ok {σ ε : Type} {err : Erc20.Err → ε} {put : Erc20.State → σ} {x : Except Erc20.Err Erc20.State} {s' : σ} :
    inner err put x = .ok s' ↔ ∃ u, x = .ok u ∧ s' = put u := by
  cases x <;> simp [inner, eq_comm]

theorem numbered_eq_ok {σ ε : Type} {x : Except ε (U256 × σ)} {s' : σ} {r : List Val} :
    numbered x = .ok (s', r) ↔ ∃ n, x = .ok (n, s') ∧ r = [.uint256 n] := by
  rcases x with e | ⟨y, s⟩
  · simp [numbered]
  · simp only [numbered, Except.ok.injEq, Prod.mk.injEq]
    constructor
    · rintro ⟨rfl, rfl⟩; exact ⟨y, ⟨rfl, rfl⟩, rfl⟩
    · rintro ⟨n, ⟨rfl, rfl⟩, rfl⟩; exact ⟨rfl, rfl⟩

theorem giving_eq_ok {σ ε : Type} {x : Except ε σ} {s' : σ} {r r0 : List Val} :
    giving x r0 = .ok (s', r) ↔ x = .ok s' ∧ r = r0 := by
  cases x with
  | ok y => simp only [giving, Except.ok.injEq, Prod.mk.injEq]; rw [eq_comm (a := r0)]
  | error e => simp [giving]

end Verif.Proofs.Outside

namespace Verif.Proofs.Outside
open Verif Verif.Abi Verif.Outside
open Verif.Spec.Outside
open Verif.Proofs.Contracts

theorem created_of_mint {u u' : Erc20.State} {r : Address} {x : U256} (hs : Erc20.SumOk u) (h : Erc20.mint u r x = .ok u') :
    Created u u' r x := by
  obtain ⟨h0, h1⟩ := Erc20.mint_eq_ok.mp h
  have e := Erc20.update_effect hs h1
  refine ⟨?_, ?_, e.allow, e.log⟩
  · have := e.supply; simpa [h0] using this
  · intro a
    have := e.bal a
    simpa [h0] using this

theorem mint_iff {u : Erc20.State} {r : Address} {x : U256} :
    (∃ u', Erc20.mint u r x = .ok u') ↔ r ≠ ZERO ∧ u.totalSupply.toNat + x.toNat < 2 ^ 256 := by
  simp only [Erc20.mint_eq_ok, exists_and_left, Erc20.update_ok_iff]
  simp

theorem burn_iff {u : Erc20.State} {o : Address} {x : U256} :
    (∃ u', Erc20.burnInternal u o x = .ok u') ↔ o ≠ ZERO ∧ x.toNat ≤ (u.balances o).toNat := by
  simp only [Erc20.burnInternal_eq_ok, exists_and_left, Erc20.update_ok_iff]
  constructor
  · rintro ⟨h0, h1, _⟩; exact ⟨h0, h1 h0⟩
  · rintro ⟨h0, h1⟩; exact ⟨h0, fun _ => h1, fun h => absurd h h0⟩

theorem max_iff (x : U256) : x = maxU256 ↔ x.toNat = 2 ^ 256 - 1 := by
  constructor
  · rintro rfl; decide
  · intro h; exact BitVec.eq_of_toNat_eq (h.trans (by decide))

theorem spendAllowance_le {u u1 : Erc20.State} {o c : Address} {x : U256} (h : Erc20.spendAllowance u o c x = .ok u1) (p q : Address) :
    (u1.allowances p q).toNat +
      (if p = o ∧ q = c ∧ (u.allowances o c).toNat ≠ 2 ^ 256 - 1 then x.toNat else 0) = (u.allowances p q).toNat := by
  rcases Erc20.spend_eq_ok.mp h with ⟨hm, rfl⟩ | ⟨hm, hl, _, _, rfl⟩
  · have := (max_iff _).mp hm
    simp [this]
  · have hm' : (u.allowances o c).toNat ≠ 2 ^ 256 - 1 := fun e => hm ((max_iff _).mpr e)
    simp only [upd2]
    by_cases hpq : p = o ∧ q = c
    · obtain ⟨rfl, rfl⟩ := hpq
      simp only [hm', ne_eq, not_false_eq_true, and_self, if_true]
      rw [BitVec.toNat_sub_of_le (BitVec.le_def.mpr hl)]
      omega
    · have : ¬ (p = o ∧ q = c ∧ (u.allowances o c).toNat ≠ 2 ^ 256 - 1) := fun h => hpq ⟨h.1, h.2.1⟩
      rw [if_neg this, if_neg hpq]; rfl

end Verif.Proofs.Outside

namespace Verif.Proofs.Outside.Vault
open Verif Verif.Abi Verif.Outside Verif.Outside.Vault
open Verif.Spec.Keccak (keccak256)
open Verif.Spec.Contracts Verif.Spec.Outside
open Verif.Proofs.Contracts Verif.Proofs.Outside

variable {τ : Type}

theorem destroyed_of_burn {s : State τ} {u1 u2 : Erc20.State} {caller o : Address} {x : U256} (hs : Erc20.SumOk s.shares)
    (h1 : Spent s caller o x u1) (h2 : Erc20.burnInternal u1 o x = .ok u2) : Destroyed s.shares u2 caller o x := by
  obtain ⟨h0, h2⟩ := Erc20.burnInternal_eq_ok.mp h2
  have frame : u1.balances = s.shares.balances ∧ u1.totalSupply = s.shares.totalSupply ∧ u1.log = s.shares.log := by
    unfold Spent at h1
    split at h1
    · subst h1; exact ⟨rfl, rfl, rfl⟩
    · exact Erc20.spend_frame h1
  have e := Erc20.update_effect (hs.of_frame frame.1 frame.2.1) h2
  refine ⟨?_, ?_, ?_, ?_⟩
  · have := e.supply; rw [frame.2.1] at this; simpa [h0] using this
  · intro a
    have := e.bal a
    rw [frame.1] at this
    simpa [h0] using this
  · intro p q
    rw [e.allow]
    unfold Spent at h1
    split at h1
    · rename_i hc; subst h1; simp [hc]
    · rename_i hc
      rw [← spendAllowance_le h1 p q]
      simp [hc]
  · rw [e.log, frame.2.2]

theorem deposit_eq (W : World τ) (D : Decoder) (s : State τ) (caller : Address) (a : U256) (r : Address) :
    deposit W keccak256 D s caller a r = (convertToSharesInternal W keccak256 D 0 s a .floor >>= fun x =>
      depositInternal W keccak256 s caller r a x >>= fun s' => pure (x, s')) := by
  unfold deposit
  rw [if_neg (Erc4626.not_max_lt a)]

theorem mint_eq (W : World τ) (D : Decoder) (s : State τ) (caller : Address) (x : U256) (r : Address) :
    mint W keccak256 D s caller x r = (convertToAssetsInternal W keccak256 D 0 s x .ceil >>= fun a =>
      depositInternal W keccak256 s caller r a x >>= fun s' => pure (a, s')) := by
  unfold mint
  rw [if_neg (Erc4626.not_max_lt x)]

theorem deposit_ok {W : World τ} {D : Decoder} {s s' : State τ} {caller r : Address} {a x : U256} :
    deposit W keccak256 D s caller a r = .ok (x, s') ↔
      convertToSharesInternal W keccak256 D 0 s a .floor = .ok x ∧ depositInternal W keccak256 s caller r a x = .ok s' := by
  rw [deposit_eq]
  simp only [bind_eq_ok, pure, Except.pure, Except.ok.injEq, Prod.mk.injEq]
  constructor
  · rintro ⟨y, h1, s1, h2, rfl, rfl⟩; exact ⟨h1, h2⟩
  · rintro ⟨h1, h2⟩; exact ⟨x, h1, s', h2, rfl, rfl⟩

theorem mint_ok {W : World τ} {D : Decoder} {s s' : State τ} {caller r : Address} {a x : U256} :
    mint W keccak256 D s caller x r = .ok (a, s') ↔
      convertToAssetsInternal W keccak256 D 0 s x .ceil = .ok a ∧ depositInternal W keccak256 s caller r a x = .ok s' := by
  rw [mint_eq]
  simp only [bind_eq_ok, pure, Except.pure, Except.ok.injEq, Prod.mk.injEq]
  constructor
  · rintro ⟨y, h1, s1, h2, rfl, rfl⟩; exact ⟨h1, h2⟩
  · rintro ⟨h1, h2⟩; exact ⟨a, h1, s', h2, rfl, rfl⟩

theorem withdraw_ok {W : World τ} {D : Decoder} {s s' : State τ} {caller r o : Address} {a x : U256} :
    withdraw W keccak256 D s caller a r o = .ok (x, s') ↔
      ∃ most, convertToAssetsInternal W keccak256 D 0 s (s.shares.balances o) .floor = .ok most ∧ a.toNat ≤ most.toNat ∧
        convertToSharesInternal W keccak256 D 1 s a .ceil = .ok x ∧ withdrawInternal W keccak256 s caller r o a x = .ok s' := by
  unfold withdraw maxWithdraw
  simp only [bind_eq_ok]
  constructor
  · rintro ⟨most, h1, h⟩
    split at h
    · cases h
    · rename_i hle
      simp only [bind_eq_ok, pure, Except.pure, Except.ok.injEq, Prod.mk.injEq] at h
      obtain ⟨y, h2, s1, h3, rfl, rfl⟩ := h
      exact ⟨most, h1, not_lt.mp fun hl => hle (BitVec.lt_def.mpr hl), h2, h3⟩
  · rintro ⟨most, h1, hle, h2, h3⟩
    refine ⟨most, h1, ?_⟩
    rw [if_neg fun hl => absurd (BitVec.lt_def.mp hl) (not_lt.mpr hle)]
    simp only [bind_eq_ok, pure, Except.pure]
    exact ⟨x, h2, s', h3, rfl⟩

theorem redeem_ok {W : World τ} {D : Decoder} {s s' : State τ} {caller r o : Address} {a x : U256} :
    redeem W keccak256 D s caller x r o = .ok (a, s') ↔
      x.toNat ≤ (s.shares.balances o).toNat ∧
        convertToAssetsInternal W keccak256 D 0 s x .floor = .ok a ∧ withdrawInternal W keccak256 s caller r o a x = .ok s' := by
  unfold redeem
  constructor
  · intro h
    dsimp only at h
    split at h
    · cases h
    · rename_i hle
      simp only [bind_eq_ok, pure, Except.pure, Except.ok.injEq, Prod.mk.injEq] at h
      obtain ⟨y, h2, s1, h3, rfl, rfl⟩ := h
      exact ⟨not_lt.mp fun hl => hle (BitVec.lt_def.mpr hl), h2, h3⟩
  · rintro ⟨hle, h2, h3⟩
    have hn : ¬ Erc20.balanceOf s.shares o < x := fun hl => absurd (BitVec.lt_def.mp hl) (not_lt.mpr hle)
    dsimp only
    rw [if_neg hn]
    simp only [bind_eq_ok, pure, Except.pure]
    exact ⟨a, h2, s', h3, rfl⟩

/-- When shares are created, and what results. -/
theorem minted_iff {u u' : Erc20.State} {r : Address} {x : U256} (hs : Erc20.SumOk u) :
    Erc20.mint u r x = .ok u' ↔ r ≠ ZERO ∧ u.totalSupply.toNat + x.toNat < 2 ^ 256 ∧ Created u u' r x := by
  constructor
  · intro h
    exact ⟨(mint_iff.mp ⟨_, h⟩).1, (mint_iff.mp ⟨_, h⟩).2, created_of_mint hs h⟩
  · rintro ⟨h1, h2, c⟩
    obtain ⟨v, hv⟩ := mint_iff.mpr ⟨h1, h2⟩
    have d := created_of_mint hs hv
    have : v = u' := by
      cases v; cases u'
      have e1 := c.supply.trans d.supply.symm
      have e2 := fun a => (c.balances a).trans (d.balances a).symm
      have e3 := c.allowances.trans d.allowances.symm
      have e4 := c.log.trans d.log.symm
      simp only at e1 e2 e3 e4
      simp only [Erc20.State.mk.injEq]
      exact ⟨(funext fun a => BitVec.eq_of_toNat_eq (e2 a).symm), e3.symm, BitVec.eq_of_toNat_eq e1.symm, e4.symm⟩
    rw [hv, this]

/-- When shares are destroyed, and what results. -/
theorem burned_iff {s : State τ} {u2 : Erc20.State} {caller o : Address} {x : U256} (hs : Erc20.SumOk s.shares)
    (hc : caller ≠ ZERO) :
    (∃ u1, Spent s caller o x u1 ∧ Erc20.burnInternal u1 o x = .ok u2) ↔
      o ≠ ZERO ∧ x.toNat ≤ (s.shares.balances o).toNat ∧
        (caller = o ∨ x.toNat ≤ (s.shares.allowances o caller).toNat) ∧ Destroyed s.shares u2 caller o x := by
  have frame : ∀ {u1}, Spent s caller o x u1 → u1.balances = s.shares.balances := by
    intro u1 h1
    unfold Spent at h1
    split at h1
    · subst h1; rfl
    · exact (Erc20.spend_frame h1).1
  constructor
  · rintro ⟨u1, h1, h2⟩
    have hb := burn_iff.mp ⟨_, h2⟩
    rw [frame h1] at hb
    refine ⟨hb.1, hb.2, ?_, destroyed_of_burn hs h1 h2⟩
    unfold Spent at h1
    split at h1
    · exact .inl ‹_›
    · refine .inr ?_
      rcases Erc20.spend_eq_ok.mp h1 with ⟨hm, _⟩ | ⟨_, hv, _⟩
      · rw [(max_iff _).mp hm]; have := x.isLt; omega
      · exact hv
  · rintro ⟨h0, hb, ha, d⟩
    have : ∃ u1, Spent s caller o x u1 := by
      unfold Spent
      by_cases hco : caller = o
      · exact ⟨s.shares, by rw [if_pos hco]⟩
      · simp only [if_neg hco, Erc20.spend_eq_ok]
        by_cases hm : s.shares.allowances o caller = maxU256
        · exact ⟨s.shares, .inl ⟨hm, rfl⟩⟩
        · exact ⟨_, .inr ⟨hm, ha.resolve_left hco, h0, hc, rfl⟩⟩
    obtain ⟨u1, h1⟩ := this
    obtain ⟨v, hv⟩ := (burn_iff (u := u1) (x := x)).mpr ⟨h0, by rw [frame h1]; exact hb⟩
    have c := destroyed_of_burn hs h1 hv
    have : v = u2 := by
      cases v; cases u2
      have e1 := c.supply.trans d.supply.symm
      have e2 := fun a => (c.balances a).trans (d.balances a).symm
      have e3 := fun p q => (c.allowances p q).trans (d.allowances p q).symm
      have e4 := c.log.trans d.log.symm
      simp only at e1 e2 e3 e4
      simp only [Erc20.State.mk.injEq]
      exact ⟨(funext fun a => BitVec.eq_of_toNat_eq (Nat.add_right_cancel (e2 a))),
        (funext fun p => funext fun q => BitVec.eq_of_toNat_eq (Nat.add_right_cancel (e3 p q))),
        BitVec.eq_of_toNat_eq (Nat.add_right_cancel e1), e4⟩
    exact ⟨u1, h1, by rw [hv, this]⟩

theorem depositInternal_iff {W : World τ} {s s' : State τ} {caller receiver : Address} {a x : U256} (hs : Erc20.SumOk s.shares) :
    depositInternal W keccak256 s caller receiver a x = .ok s' ↔
      ∃ t u, Takes W s.world s.self_ s.asset
          (message "transferFrom(address,address,uint256)" [.address caller, .address s.self_, .uint256 a]) t ∧
        receiver ≠ ZERO ∧ s.shares.totalSupply.toNat + x.toNat < 2 ^ 256 ∧ Created s.shares u receiver x ∧
        s' = { s with world := t, shares := u, log := s.log ++ [.deposit caller receiver a x] } := by
  simp only [depositInternal_ok, minted_iff hs, and_assoc]

theorem withdrawInternal_iff {W : World τ} {s s' : State τ} {caller receiver owner : Address} {a x : U256}
    (hs : Erc20.SumOk s.shares) (hc : caller ≠ ZERO) :
    withdrawInternal W keccak256 s caller receiver owner a x = .ok s' ↔
      ∃ t u, Takes W s.world s.self_ s.asset (message "transfer(address,uint256)" [.address receiver, .uint256 a]) t ∧
        owner ≠ ZERO ∧ x.toNat ≤ (s.shares.balances owner).toNat ∧
        (caller = owner ∨ x.toNat ≤ (s.shares.allowances owner caller).toNat) ∧ Destroyed s.shares u caller owner x ∧
        s' = { s with world := t, shares := u, log := s.log ++ [.withdraw caller receiver owner a x] } := by
  rw [withdrawInternal_ok]
  constructor
  · rintro ⟨u1, u2, t, h1, h2, h3, h4⟩
    obtain ⟨b1, b2, b3, b4⟩ := (burned_iff hs hc).mp ⟨u1, h1, h2⟩
    exact ⟨t, u2, h3, b1, b2, b3, b4, h4⟩
  · rintro ⟨t, u2, h3, b1, b2, b3, b4, h4⟩
    obtain ⟨u1, h1, h2⟩ := (burned_iff hs hc).mpr ⟨b1, b2, b3, b4⟩
    exact ⟨u1, u2, t, h1, h2, h3, h4⟩

end Verif.Proofs.Outside.Vault

/-! ## The wrapper -/

namespace Verif.Proofs.Outside.Wrapper
open Verif Verif.Abi Verif.Outside Verif.Calls Verif.Outside.Wrapper
open Verif.Spec.Keccak (keccak256)
open Verif.Spec.Contracts Verif.Spec.Outside
open Verif.Proofs.Contracts Verif.Proofs.Outside

variable {τ : Type}

theorem lift_ok {α : Type} {x : Except Verif.Wrapper.Err α} {a : α} : lift x = .ok a ↔ x = .ok a := by
  cases x <;> simp [lift]

theorem liftErc20_ok {x : Except Erc20.Err Erc20.State} {u : Erc20.State} :
    Verif.Wrapper.liftErc20 x = .ok u ↔ x = .ok u := by cases x <;> simp [Verif.Wrapper.liftErc20]

theorem depositFor_ok {W : World τ} {s s' : State τ} {caller account : Address} {v : U256} :
    depositFor W keccak256 s caller account v = .ok s' ↔
      ∃ t u, caller ≠ s.self_ ∧ account ≠ s.self_ ∧ Takes W s.world s.self_ s.underlying
          (message "transferFrom(address,address,uint256)" [.address caller, .address s.self_, .uint256 v]) t ∧
        Erc20.mint s.token account v = .ok u ∧ s' = { s with world := t, token := u } := by
  unfold depositFor SafeErc20.safeTransferFrom
  by_cases h1 : caller = s.self_
  · rw [if_pos h1]
    constructor
    · intro h; cases h
    · rintro ⟨_, _, h, _⟩; exact absurd h1 h
  · rw [if_neg h1]
    by_cases h2 : account = s.self_
    · rw [if_pos h2]
      constructor
      · intro h; cases h
      · rintro ⟨_, _, _, h, _⟩; exact absurd h2 h
    · rw [if_neg h2]
      simp only [bind_eq_ok, settled_ok, request_ok, lift_ok, liftErc20_ok, pure, Except.pure, Except.ok.injEq]
      constructor
      · rintro ⟨t, k1, u, k2, rfl⟩; exact ⟨t, u, h1, h2, k1, k2, rfl⟩
      · rintro ⟨t, u, _, _, k1, k2, rfl⟩; exact ⟨t, k1, u, k2, rfl⟩

theorem withdrawTo_ok {W : World τ} {s s' : State τ} {caller account : Address} {v : U256} :
    withdrawTo W keccak256 s caller account v = .ok s' ↔
      ∃ t u, account ≠ s.self_ ∧ Takes W s.world s.self_ s.underlying
          (message "transfer(address,uint256)" [.address account, .uint256 v]) t ∧
        Erc20.burnInternal s.token caller v = .ok u ∧ s' = { s with world := t, token := u } := by
  unfold withdrawTo SafeErc20.safeTransfer
  by_cases h2 : account = s.self_
  · rw [if_pos h2]
    constructor
    · intro h; cases h
    · rintro ⟨_, _, h, _⟩; exact absurd h2 h
  · rw [if_neg h2]
    simp only [bind_eq_ok, settled_ok, request_ok, lift_ok, liftErc20_ok, pure, Except.pure, Except.ok.injEq]
    constructor
    · rintro ⟨u, k1, t, k2, rfl⟩; exact ⟨t, u, h2, k2, k1, rfl⟩
    · rintro ⟨t, u, _, k2, k1, rfl⟩; exact ⟨u, k1, t, k2, rfl⟩

/-- When tokens of an account are destroyed by itself, and what results. -/
theorem burned_iff {u u' : Erc20.State} {o : Address} {x : U256} (hs : Erc20.SumOk u) :
    Erc20.burnInternal u o x = .ok u' ↔ o ≠ ZERO ∧ x.toNat ≤ (u.balances o).toNat ∧ Destroyed u u' o o x := by
  by_cases h0 : o = ZERO
  · simp [Erc20.burnInternal_eq_ok, h0]
  · have := Vault.burned_iff (s := (⟨0, 0, 0, 0, u, [], ()⟩ : Verif.Outside.Vault.State Unit)) (u2 := u') (caller := o) (o := o)
      (x := x) hs h0
    simp only [Vault.Spent, if_true, exists_eq_left, true_or, true_and] at this
    exact this

end Verif.Proofs.Outside.Wrapper
