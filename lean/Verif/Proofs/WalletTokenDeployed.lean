import Verif.Spec.WalletTokenDeployed
import Verif.Proofs.TwoDeployed
import Verif.Proofs.VestingDeployed
/-! # A wallet over a token on words does the same as over the token with mappings -/

namespace Verif.Proofs.WalletTokenDeployed
open Verif Verif.Outside Verif.Outside.Wallet Verif.Abi Verif.Entry Verif.Spec.WalletTokenDeployed Verif.Proofs.TwoDeployed
open Verif.Contracts (Row)
open Verif.Deployed (Utf8)
open Verif.Spec.Keccak (keccak256)
open Verif.Spec.VestingSystem (plain move)
open Verif.Spec.OnWords (Within)

section
variable {τ τ' : Type} {W : Chain τ} {W' : Chain τ'} {Q : τ → τ' → Prop} {Ok : Address → Bytes → Prop} {P : Address → Prop}

/-- What is used of the two chains. -/
structure AlikeChain (W : Chain τ) (W' : Chain τ') (Q : τ → τ' → Prop) (Ok : Address → Bytes → Prop) : Prop where
  world : Alike W.toWorld W'.toWorld Q Ok
  balance : ∀ t t' a, Q t t' → W.balance t a = W'.balance t' a
  pay : ∀ t t' c a v b, Q t t' → Same Q (W.pay t c a v b) (W'.pay t' c a v b)

/-- The same wallet over related chains, with an owner in `P`. -/
def Over (P : Address → Prop) (Q : τ → τ' → Prop) (s : State τ) (s' : State τ') : Prop :=
  Q s.world s'.world ∧ P s.ownable.owner ∧ ∃ t', s' = ⟨s.self_, s.ownable, s.released, s.erc20Released, s.start, s.duration, s.log, t'⟩

theorem over {self : Address} {o : Ownable.State} {r : U256} {er : Address → U256} {a d : U64} {log : List Vesting.Event} {t : τ} {t' : τ'}
    (h : Q t t') (ho : P o.owner) : Over P Q ⟨self, o, r, er, a, d, log, t⟩ ⟨self, o, r, er, a, d, log, t'⟩ := ⟨h, ho, _, rfl⟩

theorem seen_same (h : AlikeChain W W' Q Ok) {K : Hash} {D : Decoder} {s : State τ} {s' : State τ'} (hs : Over P Q s s')
    (hq : Ok s.self_ ((Calls.Message.balanceOf s.self_).bytes K)) (now : U64) : seen W K D now s = seen W' K D now s' := by
  obtain ⟨self, o, r, er, a, d, log, t⟩ := s
  obtain ⟨ht, ho, t', rfl⟩ := hs
  unfold seen
  dsimp only
  rw [h.balance t t' self ht]
  congr 1
  funext k
  rw [uint_same (ask_same h.world ht hq 0 k)]

theorem paid_same {x : Outcome τ} {y : Outcome τ'} (h : Same Q x y) : Both Q (paid x) (paid y) := by
  cases h with
  | reverted d => exact .error _
  | returned d h => exact .ok h

theorem owned_same {s : State τ} {s' : State τ'} (hs : Over P Q s s') {x : Except Ownable.Err Ownable.State}
    (hx : ∀ o, x = .ok o → P o.owner) : Both (Over P Q) (owned s x) (owned s' x) := by
  obtain ⟨self, o, r, er, a, d, log, t⟩ := s
  obtain ⟨ht, ho, t', rfl⟩ := hs
  cases x with
  | error e => exact .error _
  | ok o' => exact .ok (over ht (hx o' rfl))

theorem transfer_owner {s o : Ownable.State} {c a : Address} (h : Ownable.transferOwnership s c a = .ok o) : o.owner = a := by
  unfold Ownable.transferOwnership at h
  cases h1 : Ownable.onlyOwner s c with
  | error e => rw [h1] at h; cases h
  | ok u =>
    rw [h1] at h
    by_cases h0 : a = ZERO
    · subst h0; cases h
    · have h : (if a = ZERO then Except.error _ else _) = Except.ok o := h
      rw [if_neg h0] at h
      cases h; rfl

theorem renounce_owner {s o : Ownable.State} {c : Address} (h : Ownable.renounceOwnership s c = .ok o) : o.owner = ZERO := by
  unfold Ownable.renounceOwnership at h
  cases h1 : Ownable.onlyOwner s c with
  | error e => rw [h1] at h; cases h
  | ok u => rw [h1] at h; cases h; rfl

theorem run_same (h : AlikeChain W W' Q Ok) (K : Hash) (D : Decoder) {env : Env} {s : State τ} {s' : State τ'} (hs : Over P Q s s')
    (value : U256) (input : Bytes) (hz : P ZERO)
    (hq : Ok s.self_ ((Calls.Message.balanceOf s.self_).bytes K))
    (push : ∀ a, P a → ∀ v, Ok s.self_ ((Calls.Message.transfer a v).bytes K))
    (hP : ∀ args, Spec.OnWords.Arguments K D Router.vestingWalletExample ⟨env.caller, value, input⟩ args → ∀ a, Val.address a ∈ args → P a) :
    Same (Over P Q) (run W K D env s value input) (run W' K D env s' value input) := by
  unfold run
  split
  · exact .returned _ hs
  refine entry_same K D _ value input env.caller fun tp f args ha => ?_
  unfold handler
  dsimp only
  rw [← seen_same h hs hq env.now]
  have he := seen_same h hs hq (D := D) env.now
  have hs0 := hs
  obtain ⟨self, o, r, er, st, d, log, t⟩ := s
  obtain ⟨ht, ho, t', rfl⟩ := hs
  refine dispatch_same tp f ?_
  refine .cons ⟨rfl, rfl, ?_⟩ (.cons ⟨rfl, rfl, ?_⟩ (.cons ⟨rfl, rfl, ?_⟩ (.cons ⟨rfl, rfl, ?_⟩ (.cons ⟨rfl, rfl, ?_⟩ (.cons ⟨rfl, rfl, ?_⟩ (
    .cons ⟨rfl, rfl, ?_⟩ (.cons ⟨rfl, rfl, ?_⟩ (.cons ⟨rfl, rfl, ?_⟩ (.cons ⟨rfl, rfl, ?_⟩ (.cons ⟨rfl, rfl, ?_⟩ (.cons ⟨rfl, rfl, ?_⟩ (
    .cons ⟨rfl, rfl, ?_⟩ (.cons ⟨rfl, rfl, ?_⟩ .nil))))))))))))) <;> dsimp only <;> split
  · exact .ok ⟨hs0, rfl⟩
  · exact .error _
  · refine finish_same (owned_same hs0 fun o' e => ?_)
    rw [transfer_owner e]; exact hP _ ha _ (by simp)
  · exact .error _
  · refine finish_same (owned_same hs0 fun o' e => ?_)
    rw [renounce_owner e]; exact hz
  · exact .error _
  · exact .ok ⟨hs0, rfl⟩
  · exact .error _
  · exact .ok ⟨hs0, rfl⟩
  · exact .error _
  · exact .ok ⟨hs0, rfl⟩
  · exact .error _
  · exact .ok ⟨hs0, rfl⟩
  · exact .error _
  · exact .ok ⟨hs0, rfl⟩
  · exact .error _
  · exact view_same hs0 rfl
  · exact .error _
  · exact view_same hs0 rfl
  · exact .error _
  · refine finish_same ?_
    unfold releaseEth
    rw [← he]
    refine Both.bind_same rfl fun x => Both.bind_same rfl fun y => ?_
    exact Both.bind (paid_same (h.pay _ _ _ _ _ _ ht)) fun t1 t1' hq => .ok (over hq ho)
  · exact .error _
  · refine finish_same ?_
    unfold releaseErc20
    rw [← he]
    refine Both.bind_same rfl fun x => Both.bind_same rfl fun y => ?_
    exact Both.bind (settled_same h.world ht (r := .transfer _ _) (push _ ho _) _) fun t1 t1' hq => .ok (over hq ho)
  · exact .error _
  · exact view_same hs0 rfl
  · exact .error _
  · exact view_same hs0 rfl
  · exact .error _

end

section
variable {n : Nat} {S : List Address} {name symbol : List Char} {D : Decoder} {U : Utf8} {k : Address}

/-- The tokens agree and the ether is the same. -/
def AgreeWorld (S : List Address) (name symbol : List Char) (t : World) (t' : Spec.VestingSystem.World) : Prop :=
  Agree S name symbol t.1 t'.1 ∧ t.2 = t'.2

theorem alike (h : Spec.BasicDeployed.Setting keccak256 n S name symbol) (k : Address) :
    AlikeChain (chain D U k) (plain D ⟨name, symbol⟩ k) (AgreeWorld S name symbol)
      fun c b => Within keccak256 D Router.basicToken S ⟨c, 0#256, b⟩ where
  world := {
    code := fun _ _ _ _ => rfl
    call := fun t t' a c b ht hb => by
      unfold chain plain
      dsimp only
      split
      · have e := token_same (U := U) h ht.1 hb
        revert e
        generalize BasicDeployed.entry keccak256 D U c t.1 0#256 b = x
        generalize Entry.basicTokenEntry keccak256 D ⟨name, symbol⟩ c t'.1 0#256 b = y
        intro e
        cases e with
        | reverted d => exact .reverted _
        | returned d hq => exact .returned _ ⟨hq, ht.2⟩
      · exact .returned _ ht
    look := fun t t' m a c b ht hb => by
      unfold chain plain
      dsimp only
      rw [(token_same (U := U) h ht.1 hb).reply] }
  balance t t' a ht := by
    show t.2 a = t'.2 a
    rw [ht.2]
  pay t t' c a v b ht := by
    unfold chain plain
    dsimp only
    rw [ht.2]
    split
    · exact .reverted _
    · cases move t'.2 c a v with
      | none => exact .reverted _
      | some e => exact .returned _ ⟨ht.1, rfl⟩

theorem wallet_step (h : Spec.BasicDeployed.Setting keccak256 n S name symbol) {s : State World} {s' : State Spec.VestingSystem.World}
    (hs : Over (· ∈ S) (AgreeWorld S name symbol) s s') (hself : s.self_ ∈ S) (hz : ZERO ∈ S) {env : Env} {v : U256} {b : Bytes}
    (hx : Spec.VestingDeployed.Within keccak256 D S ⟨env, v, b⟩) :
    Same (Over (· ∈ S) (AgreeWorld S name symbol)) (run (chain D U k) keccak256 D env s v b)
      (run (plain D ⟨name, symbol⟩ k) keccak256 D env s' v b) :=
  run_same (alike h k) keccak256 D hs v b hz (asked_within hself) (fun _ ha _ => pushed_within hself ha _)
    fun args ha a hm => hx args ha a hm

end

end Verif.Proofs.WalletTokenDeployed
