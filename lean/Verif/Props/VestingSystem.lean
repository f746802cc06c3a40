import Verif.Spec.VestingSystem
import Verif.Props.VestingBytes
/-! # C109: the wallet, a token of the library and ether, without hypotheses about the rest of the chain -/
namespace Verif.Props.VestingSystem
open Verif Verif.Abi Verif.Outside Verif.Outside.Wallet
open Verif.Spec.Keccak (keccak256)
open Verif.Spec.Contracts Verif.Spec.VestingBytes
open Verif.Spec.VestingSystem (plain move Tx acts)
open Verif.Spec.Outside (Reports Takes)
open Verif.Spec.Vesting (curve)
open Verif.Proofs.Contracts Verif.Proofs.Outside
open Verif.Props.VestingBytes

variable (D : Decoder) (m : Entry.Strings)

theorem move_some {e e' : Address → U256} {src dst : Address} {v : U256} (h : move e src dst v = some e') (a : Address) :
    (e' a).toNat + (if a = src then v.toNat else 0) = (e a).toNat + (if a = dst then v.toNat else 0) := by
  unfold move at h
  split at h
  · rename_i hc
    obtain ⟨h1, h2, h3⟩ := hc
    cases h
    by_cases ha : a = src
    · subst ha
      simp only [if_true, if_neg h1]
      rw [toNat_sub_of_ge h2]; omega
    · by_cases hb : a = dst
      · subst hb
        simp only [if_neg ha, if_true]
        rw [toNat_add_of_lt h3]; rfl
      · simp only [if_neg ha, if_neg hb]
  · cases h

theorem plain_pay {k src dst : Address} {v : U256} {t : Spec.VestingSystem.World} {e : Address → U256} (hk : dst ≠ k)
    (h : move t.2 src dst v = some e) : (plain D m k).pay t src dst v [] = .returned (t.1, e) [] := by
  unfold plain
  simp only [if_neg hk, h]

theorem ether (k self_ : Address) : Ether (plain D m k) self_ where
  pay t target v b t' data h := by
    unfold plain at h ⊢
    simp only at h ⊢
    split at h
    · cases h
    · cases he : move t.2 self_ target v with
      | none => rw [he] at h; cases h
      | some e =>
        rw [he] at h
        cases h
        have := move_some he self_
        rw [if_pos rfl] at this
        show (t.2 self_).toNat ≤ (e self_).toNat + v.toNat
        omega
  call t target b t' data h := by
    unfold plain at h ⊢
    simp only at h ⊢
    split at h
    · split at h
      · cases h; exact le_refl _
      · cases h
    · cases h; exact le_refl _

/-- What the token does when the wallet asks for a transfer. -/
theorem takes_plain {k self_ dst : Address} {v : U256} {t t' : Spec.VestingSystem.World}
    (h : Takes (plain D m k).toWorld t self_ k (message "transfer(address,uint256)" [.address dst, .uint256 v]) t') :
    Erc20.transfer t.1 self_ dst v = .ok t'.1 ∧ t'.2 = t.2 := by
  obtain ⟨_, data, h, _⟩ := h
  have hc := Props.Contracts.BasicTokenContract.C103_basic_token_call D m self_ t.1 (.transfer dst v)
    (words_lt _ _ (by simp [Props.Contracts.BasicTokenContract.abi, arg]) (by simp [Props.Contracts.BasicTokenContract.abi]))
  have hc : Entry.basicTokenEntry keccak256 D m self_ t.1 0#256 (message "transfer(address,uint256)" [.address dst, .uint256 v]) = _ := hc
  unfold plain at h
  simp only [if_true] at h
  rw [hc] at h
  unfold Props.Contracts.BasicTokenContract.exec at h
  have he : Erc20.exec t.1 (self_, (Props.Contracts.BasicTokenContract.Op.transfer dst v).call) = Erc20.transfer t.1 self_ dst v := rfl
  rw [he] at h
  cases hx : Erc20.transfer t.1 self_ dst v with
  | error e => rw [hx] at h; cases h
  | ok u => rw [hx] at h; cases h; exact ⟨rfl, rfl⟩

/-- And that it does. -/
theorem plain_takes {k self_ dst : Address} {v : U256} {t : Spec.VestingSystem.World} {u : Erc20.State}
    (h : Erc20.transfer t.1 self_ dst v = .ok u) :
    Takes (plain D m k).toWorld t self_ k (message "transfer(address,uint256)" [.address dst, .uint256 v]) (u, t.2) := by
  have hc := Props.Contracts.BasicTokenContract.C103_basic_token_call D m self_ t.1 (.transfer dst v)
    (words_lt _ _ (by simp [Props.Contracts.BasicTokenContract.abi, arg]) (by simp [Props.Contracts.BasicTokenContract.abi]))
  have hc : Entry.basicTokenEntry keccak256 D m self_ t.1 0#256 (message "transfer(address,uint256)" [.address dst, .uint256 v]) = _ := hc
  refine ⟨decide_eq_true rfl, values [.bool true], ?_, ?_⟩
  · unfold plain
    simp only [if_true]
    rw [hc]
    unfold Props.Contracts.BasicTokenContract.exec
    have he : Erc20.exec t.1 (self_, (Props.Contracts.BasicTokenContract.Op.transfer dst v).call) = .ok u := h
    rw [he]
    rfl
  · unfold Spec.SafeErc20.Accepted
    decide +kernel

theorem transfer_bal {t t' : Erc20.State} {c dst : Address} {v : U256} (h : Erc20.transfer t c dst v = .ok t') :
    (t.balances c).toNat ≤ (t'.balances c).toNat + v.toNat ∧ t'.allowances = t.allowances := by
  obtain ⟨h1, h2, h3⟩ := Erc20.transferInternal_eq_ok.mp h
  obtain ⟨s1, hd, rfl⟩ := Erc20.update_eq_ok.mp h3
  rcases Erc20.debit_ok hd with ⟨h0, _, _⟩ | ⟨_, hv, rfl⟩
  · exact absurd h0 h1
  · unfold Erc20.credit
    rw [if_neg h2]
    refine ⟨?_, rfl⟩
    simp only [upd]
    by_cases hcd : c = dst
    · subst hcd
      simp only [if_true]
      have : t.balances c - v + v = t.balances c := by
        exact BitVec.sub_add_cancel _ _
      rw [this]; omega
    · rw [if_neg hcd, if_pos trivial, toNat_sub_of_ge hv]; omega

theorem holds (k self_ : Address) : Holds (plain D m k) D self_ k (fun t => t.1.balances self_) where
  reports t := by
    obtain ⟨_, data, h1, h2⟩ := Props.Vault.reports_std D m t.1 0 self_ k
    refine ⟨decide_eq_true rfl, data, ?_, h2⟩
    generalize message "balanceOf(address)" [.address self_] = b at h1
    have : (plain D m k).look t 0 self_ k b = (Entry.basicTokenEntry keccak256 D m self_ t.1 0#256 b).reply := if_pos rfl
    rw [this]
    exact h1
  transfer t dst v t' h := (transfer_bal (takes_plain D m h).1).1
  other t target b t' data hk h := by
    unfold plain at h
    simp only [if_neg hk] at h
    cases h; exact le_refl _
  pay t target v b t' data h := by
    unfold plain at h
    simp only at h
    split at h
    · cases h
    · split at h
      · cases h; exact le_refl _
      · cases h

/-- What is true of the token all along. -/
def Fine (self_ : Address) (t : Erc20.State) : Prop := Spec.Erc20.Reachable t ∧ ∀ p, t.allowances self_ p = 0#256

theorem reachable_exec {t t' : Erc20.State} {op : Address × Erc20.Call} (hr : Spec.Erc20.Reachable t) (h : Erc20.exec t op = .ok t') :
    Spec.Erc20.Reachable t' := by
  obtain ⟨l, rfl⟩ := hr
  refine ⟨l ++ [op], ?_⟩
  unfold Erc20.run at h ⊢
  rw [runOf_append]
  show t' = stepOf Erc20.exec _ op
  rw [stepOf_ok h]

/-- Others cannot take the tokens of an account that allows nothing. -/
theorem fine_tx {self_ c : Address} {t : Erc20.State} (ht : Fine self_ t) (hc : c ≠ self_) (v : U256) (i : Bytes) :
    let t' := (Entry.basicTokenEntry keccak256 D m c t v i).after t
    Fine self_ t' ∧ (t.balances self_).toNat ≤ (t'.balances self_).toNat := by
  intro t'
  rcases Props.Contracts.BasicTokenContract.C103_basic_token_no_other_effect D m c t v i with
    ⟨d, h⟩ | ⟨d, h⟩ | ⟨op, s', r, he, h, _, _⟩
  · have h : Entry.basicTokenEntry keccak256 D m c t v i = _ := h
    have : t' = t := by show Outcome.after t _ = t; rw [h]; rfl
    rw [this]; exact ⟨ht, le_refl _⟩
  · have h : Entry.basicTokenEntry keccak256 D m c t v i = _ := h
    have : t' = t := by show Outcome.after t _ = t; rw [h]; rfl
    rw [this]; exact ⟨ht, le_refl _⟩
  · have h : Entry.basicTokenEntry keccak256 D m c t v i = _ := h
    have : t' = s' := by show Outcome.after t _ = s'; rw [h]; rfl
    rw [this]
    have he := (giving_eq_ok.mp he).1
    refine ⟨⟨reachable_exec ht.1 he, fun p => ?_⟩, ?_⟩
    · have hs := Props.allowance_step (owner := self_) (spender := p) (by rw [ht.2 p]; decide) hc he
      rw [ht.2 p] at hs
      apply BitVec.eq_of_toNat_eq
      have : (0#256).toNat = 0 := rfl
      omega
    · by_contra hlt
      rcases Props.C05_only_authorised_debit ht.1 he (a := self_) (Nat.lt_of_not_le hlt) with h1 | h1
      · exact hc h1
      · have : Erc20.allowance t self_ c = 0#256 := ht.2 c
        rw [this] at h1
        have h1 : (t.balances self_).toNat - (s'.balances self_).toNat ≤ 0 := h1
        omega

/-- The wallet keeps the token so. -/
theorem fine_act {k : Address} {env : Env} {s s' : State Spec.VestingSystem.World} {op : Op} (ht : Fine s.self_ s.world.1)
    (h : VestingBytes.act (plain D m k) D env s op = .ok s') : Fine s.self_ s'.world.1 := by
  rcases act_cases h with ⟨c, o, _, rfl⟩ | h | ⟨k', h⟩
  · exact ht
  · obtain ⟨a, rel, t, d, hd, hc, hp, rfl⟩ := releaseEth_ok h
    unfold plain at hp
    simp only at hp
    split at hp
    · cases hp
    · split at hp
      · cases hp; exact ht
      · cases hp
  · obtain ⟨A, a, rel, t, hA, hd, hc, hT, rfl⟩ := releaseErc20_ok h
    have hk : k' = k := of_decide_eq_true hT.1
    subst hk
    have hx := (takes_plain D m hT).1
    refine ⟨reachable_exec (op := (s.self_, .transfer s.ownable.owner a)) ht.1 hx, fun p => ?_⟩
    show t.1.allowances s.self_ p = _
    rw [(transfer_bal hx).2]
    exact ht.2 p

/-- What is true of the whole all along. -/
structure Inv (a k : Address) (start duration now : U64) (s : State Spec.VestingSystem.World) : Prop where
  self_ : s.self_ = a
  begins : s.start = start
  lasts : s.duration = duration
  fine : Fine a s.world.1
  eth : EthOk (plain D m k) now s
  token : TokenOk (fun t : Spec.VestingSystem.World => t.1.balances a) k now s

theorem inv_later {self_ k : Address} {start duration now now' : U64} {s : State Spec.VestingSystem.World}
    (h : Inv D m self_ k start duration now s) (hn : now.toNat ≤ now'.toNat) : Inv D m self_ k start duration now' s :=
  ⟨h.self_, h.begins, h.lasts, h.fine, ethOk_more (t := s.world) h.eth hn (le_refl _), tokenOk_more (t := s.world) h.token hn (le_refl _)⟩

theorem inv_act {self_ k : Address} {start duration now : U64} {s : State Spec.VestingSystem.World} {x : Tx}
    (h : Inv D m self_ k start duration now s) (hx : x.sender ≠ self_) :
    Inv D m self_ k start duration now (Spec.VestingSystem.act D m k s now x) := by
  obtain ⟨rfl, rfl, rfl, hf, he, hk⟩ := h
  cases x with
  | wallet c v i =>
    unfold Spec.VestingSystem.act
    simp only
    cases hm : move s.world.2 c s.self_ v with
    | none => exact ⟨rfl, rfl, rfl, hf, he, hk⟩
    | some e =>
      have hle : (s.world.2 s.self_).toNat ≤ (e s.self_).toNat := by
        have := move_some hm s.self_
        rw [if_neg (fun h => hx h.symm : ¬ s.self_ = c), if_pos rfl] at this
        omega
      simp only
      generalize hst : (Step.call ⟨c, now⟩ v i fun t => (t.1, e) : Step Spec.VestingSystem.World) = st
      have hc : Clocked now [st] := by subst hst; exact ⟨le_refl _, trivial⟩
      have h1 := step_same (plain D m k) D s st
      refine ⟨h1.1, h1.2.1, h1.2.2, ?_, ?_, ?_⟩
      · subst hst
        rcases step_call (plain D m k) D s ⟨c, now⟩ v i (fun t => (t.1, e)) with h | h | ⟨op, h⟩
        · rw [h]; exact hf
        · rw [h]; exact hf
        · exact fine_act D m (s := { s with world := (s.world.1, e) }) hf h
      · have := ethOk_step (D := D) (x := st) (l := []) (ether D m k s.self_) he (by subst hst; exact ⟨hle, trivial⟩) hc
        subst hst
        exact this
      · have := tokenOk_step (D := D) (x := st) (l := []) (holds D m k s.self_) hk (by subst hst; exact ⟨le_refl _, trivial⟩) hc
        subst hst
        exact this
  | token c v i =>
    obtain ⟨h1, h2⟩ := fine_tx D m hf hx v i
    exact ⟨rfl, rfl, rfl, h1, ethOk_more (t := (_, s.world.2)) he (le_refl _) (le_refl _),
      tokenOk_more (t := (_, s.world.2)) hk (le_refl _) h2⟩
  | pay c d v =>
    refine ⟨rfl, rfl, rfl, hf, ?_, tokenOk_more (t := (s.world.1, _)) hk (le_refl _) (le_refl _)⟩
    refine ethOk_more (t := (s.world.1, _)) he (le_refl _) ?_
    show (s.world.2 s.self_).toNat ≤ ((move s.world.2 c d v).getD s.world.2 s.self_).toNat
    cases hm : move s.world.2 c d v with
    | none => exact le_refl _
    | some e =>
      have := move_some hm s.self_
      rw [if_neg (fun h => hx h.symm : ¬ s.self_ = c)] at this
      show _ ≤ (e s.self_).toNat
      omega

theorem inv_acts {self_ k : Address} {start duration now T : U64} (l : List (U64 × Tx)) {s : State Spec.VestingSystem.World}
    (h : Inv D m self_ k start duration now s) (hx : ∀ x ∈ l, x.2.sender ≠ self_)
    (hl : (now :: l.map Prod.fst ++ [T]).Pairwise fun a b => a.toNat ≤ b.toNat) :
    Inv D m self_ k start duration T (acts D m k s l) := by
  induction l generalizing s now with
  | nil =>
    refine inv_later D m h ?_
    simp only [List.map_nil, List.cons_append, List.nil_append, List.pairwise_cons] at hl
    exact hl.1 T (by simp)
  | cons x l ih =>
    have hl' : (now :: (x.1 :: l.map Prod.fst ++ [T])).Pairwise fun a b => a.toNat ≤ b.toNat := hl
    rw [List.pairwise_cons] at hl'
    have h1 := inv_act D m (inv_later D m h (hl'.1 x.1 (by simp))) (hx x (by simp))
    exact ih h1 (fun y hy => hx y (by simp [hy])) hl'.2

/-- A new wallet: its address has signed nothing. -/
theorem inv_new {self_ k owner : Address} {start duration now : U64} {e : Address → U256} {before : List (Raw Address)}
    (hb : ∀ x ∈ before, x.env ≠ self_) :
    Inv D m self_ k start duration now
      (newWallet self_ owner start duration (after (Entry.basicTokenEntry keccak256 D m) Erc20.init before, e)) := by
  refine ⟨rfl, rfl, rfl, ?_, ⟨Nat.zero_le _, rfl⟩, ⟨Nat.zero_le _, rfl⟩⟩
  show Fine self_ (after (Entry.basicTokenEntry keccak256 D m) Erc20.init before)
  have : ∀ (l : List (Raw Address)) (t : Erc20.State), Fine self_ t → (∀ x ∈ l, x.env ≠ self_) →
      Fine self_ (after (Entry.basicTokenEntry keccak256 D m) t l) := by
    intro l
    induction l with
    | nil => exact fun t h _ => h
    | cons x l ih =>
      intro t h hx
      exact ih _ (fine_tx D m h (hx x (by simp)) x.value x.input).1 (fun y hy => hx y (by simp [hy]))
  exact this before Erc20.init ⟨⟨[], rfl⟩, fun p => rfl⟩ hb

/-- **C109** A wallet, the token of `examples/basic/token` and ether, on bytes, with no hypothesis about the rest of the chain: take
any transactions to the token before the wallet was deployed, then any transactions to the wallet and to the token and any
payments, in the order of their times, none sent by the wallet's own address.  At every later time `T` the wallet answers, for ether
and for the token, amounts released that are at most what the schedule allows at `T` of what the wallet has (as the token answers) and
has released, and exactly the sum of its events. -/
theorem C109_system (self_ k owner : Address) (start duration now T : U64) (e : Address → U256) (before : List (Raw Address))
    (l : List (U64 × Tx)) (hb : ∀ x ∈ before, x.env ≠ self_) (hx : ∀ x ∈ l, x.2.sender ≠ self_)
    (hl : (now :: l.map Prod.fst ++ [T]).Pairwise fun a b => a.toNat ≤ b.toNat) (asker : Address) (env : Env) :
    let s := acts D m k (newWallet self_ owner start duration (after (Entry.basicTokenEntry keccak256 D m) Erc20.init before, e)) l
    ∃ r rk B : U256,
      answer (wallet (plain D m k) D) env s "released()" [] = some (values [.uint256 r]) ∧
      r.toNat ≤ curve start.toNat duration.toNat ((s.world.2 self_).toNat + r.toNat) T.toNat ∧
      etherOut s.log = r.toNat ∧
      answer (wallet (plain D m k) D) env s "released(address)" [.address k] = some (values [.uint256 rk]) ∧
      answer (Entry.basicTokenEntry keccak256 D m) asker s.world.1 "balanceOf(address)" [.address self_] = some (values [.uint256 B]) ∧
      rk.toNat ≤ curve start.toNat duration.toNat (B.toNat + rk.toNat) T.toNat ∧
      tokenOut k s.log = rk.toNat := by
  intro s
  have h : Inv D m self_ k start duration T s := inv_acts D m l (inv_new D m hb) hx hl
  clear_value s
  obtain ⟨rfl, rfl, rfl, hf, he, hk⟩ := h
  have hv := C109_views (plain D m k) D env s k
  refine ⟨s.released, s.erc20Released k, s.world.1.balances s.self_, ?_, he.1, he.2, ?_,
    (Props.SafeBytes.token_answers D m asker s.self_ s.self_ s.world.1).1, hk.1, hk.2⟩
  · unfold answer; rw [hv.2.2.2.2.1]; rfl
  · unfold answer; rw [hv.2.2.2.2.2]; rfl

/-! ### The hypotheses are met, and a history -/

/-- Alice, who deployed the token. -/
def alice : Address := 0xa11ce#160
/-- The owner. -/
def bob : Address := 0xb0b#160
/-- Anyone. -/
def carol : Address := 0xca501#160
/-- The wallet. -/
def me : Address := 0x3a11e7#160
/-- The token. -/
def token : Address := 0x70ce4#160

/-- The token after Alice gave the wallet 1000, before it was deployed. -/
def before : List (Raw Address) := [⟨alice, 0#256, message "mint(address,uint256)" [.address me, .uint256 1000#256]⟩]

/-- Alice sends the wallet 500 of ether before it starts; Carol releases the token and the ether at a quarter of the time; Alice sends
200 of ether; Carol releases all after the end. -/
def sample : List (U64 × Tx) :=
  [(50#64, .wallet alice 500#256 []), (125#64, .wallet carol 0#256 (message "release(address)" [.address token])),
   (125#64, .wallet carol 0#256 (message "release()" [])), (130#64, .pay alice me 200#256),
   (200#64, .wallet carol 0#256 (message "release()" []))]

/-- Ether at the beginning: only Alice has some. -/
def purse : Address → U256 := fun a => if a = alice then 1000#256 else 0#256

-- C109_system
example : (∀ x ∈ before, x.env ≠ me) ∧ (∀ x ∈ sample, x.2.sender ≠ me) ∧
    ((0#64) :: sample.map Prod.fst ++ [300#64]).Pairwise fun a b => a.toNat ≤ b.toNat := by
  refine ⟨?_, ?_, ?_⟩
  · intro x hx
    simp only [before, List.mem_singleton] at hx
    subst hx
    show alice ≠ me
    decide
  · intro x hx
    simp only [sample, List.mem_cons, List.not_mem_nil, or_false] at hx
    rcases hx with rfl | rfl | rfl | rfl | rfl <;> decide
  · show ([0#64, 50#64, 125#64, 125#64, 130#64, 200#64, 300#64] : List U64).Pairwise _
    decide

/-- The token when the wallet has 1000. -/
def minted : Erc20.State :=
  { Erc20.init with balances := upd Erc20.init.balances me 1000#256, totalSupply := 1000#256, log := [.transfer ZERO me 1000#256] }

/-- Bob's wallet, from time 100 to 200, with 500 of ether and 1000 of the token. -/
def rich : State Spec.VestingSystem.World :=
  newWallet me bob 100#64 100#64 (minted, fun a => if a = me then 500#256 else 0#256)

/-- The numbers of the schedule. -/
theorem rich_fits {A r : Nat} (h : A + r < 2 ^ 200) (now : U64) : State.Fits rich (A + r) now :=
  ⟨by omega, fun _ h2 => by
    have : now.toNat - rich.start.toNat < 2 ^ 56 := by
      have : now.toNat < 100 + 100 := h2
      omega
    calc (A + r) * (now.toNat - rich.start.toNat) < 2 ^ 200 * 2 ^ 56 := Nat.mul_lt_mul'' h this
      _ = 2 ^ 256 := by norm_num⟩

-- C109_release_eth, C109_eth_schedule: at a quarter of the time Carol makes the wallet pay Bob a quarter
example : ∃ s', wallet (plain D m token) D ⟨carol, 125#64⟩ rich 0#256 (message "release()" []) = .returned s' [] ∧
    s'.released = 125#256 ∧ s'.world.2 bob = 125#256 ∧ s'.world.2 me = 375#256 ∧ s'.log = [.etherReleased 125#256] := by
  have hc : State.curve rich (500 + 0) 125#64 = 125 := by decide +kernel
  have hp : ∃ e, move rich.world.2 me bob 125#256 = some e ∧ e bob = 125#256 ∧ e me = 375#256 := ⟨_, if_pos (by decide), by decide, by decide⟩
  obtain ⟨e, hp, h1, h2⟩ := hp
  refine ⟨{ rich with released := 125#256, world := (minted, e), log := [.etherReleased 125#256] }, ?_, rfl, h1, h2, rfl⟩
  refine ((C109_release_eth (plain D m token) D ⟨carol, 125#64⟩ rich (Nat.zero_le _)).1 _ _).mpr
    ⟨rich_fits (A := 500) (r := 0) (by norm_num) 125#64, 125#256, 125#256, (minted, e), [], hc.symm, ?_, hc.symm, rfl, rfl⟩
  exact plain_pay D m (t := rich.world) (by decide) hp

-- C109_release_token, C109_token_schedule
example : ∃ s', wallet (plain D m token) D ⟨carol, 125#64⟩ rich 0#256 (message "release(address)" [.address token]) = .returned s' [] ∧
    s'.erc20Released token = 250#256 ∧ s'.world.1.balances bob = 250#256 ∧ s'.world.1.balances me = 750#256 := by
  have hc : State.curve rich (1000 + 0) 125#64 = 250 := by decide +kernel
  have hx : ∃ u, Erc20.transfer minted me bob 250#256 = .ok u ∧ u.balances bob = 250#256 ∧ u.balances me = 750#256 := by
    refine ⟨_, rfl, by decide +kernel, by decide +kernel⟩
  obtain ⟨u, hu, h1, h2⟩ := hx
  refine ⟨{ rich with erc20Released := upd rich.erc20Released token 250#256, world := (u, rich.world.2), log := [.erc20Released token 250#256] },
    ?_, (show upd rich.erc20Released token 250#256 token = 250#256 from if_pos rfl), h1, h2⟩
  exact ((C109_release_token (plain D m token) D ⟨carol, 125#64⟩ rich token 1000#256 ((holds D m token me).reports rich.world)
    (Nat.zero_le _)).1 _ _).mpr ⟨rich_fits (A := 1000) (r := 0) (by norm_num) 125#64, 250#256, 250#256, (u, rich.world.2), hc.symm,
      plain_takes D m (t := rich.world) hu, hc.symm, rfl, rfl⟩

-- C109_invalid_token: an address without code
example : ∀ A, ¬ Reports (plain D m token).toWorld D rich.world 0 me carol A := by
  rintro A ⟨h, _⟩
  have h : decide (carol = token) = true := h
  exact absurd (of_decide_eq_true h) (by decide)

/-- **C109** Finding: a wallet whose owner renounced still pays, when anybody asks, and to the zero address: at the end all its ether is
lost. -/
theorem C109_renounced_loses : ∃ s1 s2,
    wallet (plain D m token) D ⟨bob, 150#64⟩ rich 0#256 (message "renounceOwnership()" []) = .returned s1 [] ∧
    wallet (plain D m token) D ⟨carol, 200#64⟩ s1 0#256 (message "release()" []) = .returned s2 [] ∧
    s2.world.2 me = 0#256 ∧ s2.world.2 ZERO = 500#256 := by
  have hp : ∃ e, move rich.world.2 me ZERO 500#256 = some e ∧ e me = 0#256 ∧ e ZERO = 500#256 := ⟨_, if_pos (by decide), by decide, by decide⟩
  obtain ⟨e, hp, h1, h2⟩ := hp
  have hc : State.curve rich (500 + 0) 200#64 = 500 := by decide +kernel
  have ho : ∃ o, Ownable.renounceOwnership rich.ownable bob = .ok o ∧ o.owner = ZERO := ⟨_, rfl, rfl⟩
  obtain ⟨o, ho, hz⟩ := ho
  refine ⟨{ rich with ownable := o }, { rich with ownable := o, released := 500#256, world := (minted, e), log := [.etherReleased 500#256] },
    ?_, ?_, h1, h2⟩
  · refine (act_iff (op := .renounceOwnership)).mpr ⟨?_, rfl⟩
    show owned rich (Ownable.renounceOwnership rich.ownable bob) = _
    rw [ho]; rfl
  · refine ((C109_release_eth (plain D m token) D ⟨carol, 200#64⟩ { rich with ownable := o } (Nat.zero_le _)).1 _ _).mpr
      ⟨rich_fits (A := 500) (r := 0) (by norm_num) 200#64, 500#256, 500#256, (minted, e), [], hc.symm, ?_, hc.symm, rfl, rfl⟩
    show (plain D m token).pay rich.world me o.owner 500#256 [] = _
    rw [hz]
    exact plain_pay D m (t := rich.world) (by decide) hp

end Verif.Props.VestingSystem
