import Verif.Props.VaultSystem
import Verif.Props.ContractsErc721
import Verif.Props.Erc721Wrapper
import Verif.Spec.NftBytes
/-! # C111: the ERC-721 wrapper on bytes, over any underlying token -/
namespace Verif.Props.NftBytes
open Verif Verif.Abi Verif.Outside Verif.Outside.Nfts Verif.Proofs.Contracts
open Verif.Wrapper721 (TokenCall)
open Verif.Spec.Keccak (keccak256)
open Verif.Spec.Contracts Verif.Spec.NftBytes
open Verif.Spec.Outside (Step play)
open Verif.Spec.Calls (call)
open Verif.Spec.Revert (addr)
open Verif.Proofs.Outside (bytes_message giving_eq_ok)

variable {τ : Type}

/-- The operations of the wrapper. -/
inductive Op where
  | depositFor (account : Address) (ids : List U256)
  | withdrawTo (account : Address) (ids : List U256)
  | onReceived (operator src : Address) (id : U256) (data : Bytes)
  | token (c : TokenCall)

/-- Signature and arguments of each operation. -/
def abi : Op → String × List Val
  | .depositFor a ids => ("depositFor(address,uint256[])", [.address a, .uints ids])
  | .withdrawTo a ids => ("withdrawTo(address,uint256[])", [.address a, .uints ids])
  | .onReceived o src id data => ("onErc721Received(address,address,uint256,bytes)",
      [.address o, .address src, .uint256 id, .bytes data])
  | .token (.transferFrom src dst id) =>
    ("transferFrom(address,address,uint256)", [.address src, .address dst, .uint256 id])
  | .token (.safeTransferFrom src dst id) =>
    ("safeTransferFrom(address,address,uint256)", [.address src, .address dst, .uint256 id])
  | .token (.safeTransferFromWithData src dst id data) =>
    ("safeTransferFrom(address,address,uint256,bytes)", [.address src, .address dst, .uint256 id, .bytes data])
  | .token (.approve dst id) => ("approve(address,uint256)", [.address dst, .uint256 id])
  | .token (.setApprovalForAll p b) => ("setApprovalForAll(address,bool)", [.address p, .bool b])

/-- What it answers. -/
def results : Op → List Val
  | .depositFor .. => [.bool true]
  | .withdrawTo .. => [.bool true]
  | .onReceived .. => [.bytes4 0x150b7a02#32]
  | .token _ => []

/-- The operation, for the sender. -/
def act (W : World τ) (D : Decoder) (caller : Address) (s : State τ) : Op → Except Err (State τ)
  | .depositFor a ids => depositFor W keccak256 D caller a s ids
  | .withdrawTo a ids => withdrawTo W keccak256 D caller a s ids
  | .onReceived _ src id _ => onReceived W keccak256 D s caller src id
  | .token c => tokenCall W keccak256 D s caller c

/-- With its answer. -/
def exec (W : World τ) (D : Decoder) (caller : Address) (s : State τ) (op : Op) : Except Err (State τ × List Val) :=
  giving (act W D caller s op) (results op)

/-- The wrapper on bytes. -/
abbrev wrapper (W : World τ) (D : Decoder) (caller : Address) (s : State τ) (value : U256) (input : Bytes) :
    Outcome (State τ) := Nfts.run W keccak256 D caller s value input

/-- The revert data of an error. -/
def revert (e : Err) : Bytes := ((errReply e).data keccak256).getD []

abbrev spec : Spec.Router.Entry := ⟨Router.erc721WrapperExample, Spec.Router.erc721WrapperExample, [Spec.Router.erc721]⟩

theorem mem : spec ∈ Spec.Router.contracts := by simp [Spec.Router.contracts]

set_option maxRecDepth 100000 in
/-- **C111** For every world, operation, sender and state: the message of the call, as the ABI defines it, has exactly the effect
and the answer of the operation, or reverts with exactly the bytes of its error. -/
theorem C111_call (W : World τ) (D : Decoder) (caller : Address) (s : State τ) (op : Op)
    (hl : (message (abi op).1 (abi op).2).length < 2 ^ 256) :
    wrapper W D caller s 0#256 (message (abi op).1 (abi op).2) = reply revert (exec W D caller s op) := by
  cases op with
  | token c =>
    cases c <;> exact run_message mem D _ s _ _ rfl rfl (by exact outcome_finish _ _)
      (by simp [abi, Spec.Router.erc721WrapperExample]) hl
  | depositFor | withdrawTo | onReceived =>
    exact run_message mem D _ s _ _ rfl rfl (by exact outcome_finish _ _)
      (by simp [abi, Spec.Router.erc721WrapperExample]) hl

set_option maxRecDepth 100000 in
theorem ops (W : World τ) (D : Decoder) : Ops spec (handler W keccak256 D) abi (exec W D) where
  inv env s sg t n args s' r hm hh := by
    obtain ⟨x, hmem, rfl, rfl, h2⟩ := dispatch_ok hh
    clear hh
    simp only [Contracts.erc721Views, List.cons_append, List.nil_append, List.mem_cons, List.not_mem_nil,
      or_false] at hmem
    rcases hmem with rfl | rfl | rfl | rfl | rfl | rfl | rfl | rfl | rfl | rfl | rfl | rfl | rfl
    all_goals dsimp only at h2 hm
    all_goals split at h2
    all_goals try (first | (cases h2; done) | exact .inl (view_ok h2) | (cases h2; exact .inl rfl))
    all_goals simp [Spec.Router.erc721WrapperExample] at hm
    all_goals subst hm
    · exact .inr ⟨.depositFor _ _, rfl, finish_ok h2⟩
    · exact .inr ⟨.withdrawTo _ _, rfl, finish_ok h2⟩
    · exact .inr ⟨.onReceived _ _ _ _, rfl, finish_ok h2⟩
    · exact .inr ⟨.token (.transferFrom _ _ _), rfl, finish_ok h2⟩
    · exact .inr ⟨.token (.safeTransferFrom _ _ _), rfl, finish_ok h2⟩
    · exact .inr ⟨.token (.safeTransferFromWithData _ _ _ _), rfl, finish_ok h2⟩
    · exact .inr ⟨.token (.approve _ _), rfl, finish_ok h2⟩
    · exact .inr ⟨.token (.setApprovalForAll _ _), rfl, finish_ok h2⟩

/-- **C111** Whatever is sent: the call is refused, or it is answered and changes nothing, or it is a call of one of the
operations (its selector, its arguments, no value) that succeeds, with exactly its effect and its reply. -/
theorem C111_no_other_effect (W : World τ) (D : Decoder) (caller : Address) (s : State τ) (value : U256) (input : Bytes) :
    (∃ data, wrapper W D caller s value input = .reverted data) ∨
    (∃ data, wrapper W D caller s value input = .returned s data) ∨
    ∃ op s' r, exec W D caller s op = .ok (s', r) ∧ wrapper W D caller s value input = .returned s' (values r) ∧
      value = 0#256 ∧ Says D input (abi op).1 (abi op).2 :=
  no_other_effect mem (ops W D) D caller s value input

set_option maxRecDepth 100000 in
/-- **C111** What the questions answer, for every sender and state. -/
theorem C111_views (W : World τ) (D : Decoder) (caller : Address) (s : State τ) (a b : Address) (i : U256) :
    wrapper W D caller s 0#256 (message "underlying()" []) = .returned s (values [.address s.underlying]) ∧
    wrapper W D caller s 0#256 (message "balanceOf(address)" [.address a]) =
      (if a = ZERO then .reverted (call "ERC721InvalidOwner(address)" [addr ZERO])
       else .returned s (values [.uint256 (s.token.balances a)])) ∧
    wrapper W D caller s 0#256 (message "ownerOf(uint256)" [.uint256 i]) =
      (if s.token.owners i = ZERO then .reverted (call "ERC721NonexistentToken(uint256)" [i])
       else .returned s (values [.address (s.token.owners i)])) ∧
    wrapper W D caller s 0#256 (message "getApproved(uint256)" [.uint256 i]) =
      (if s.token.owners i = ZERO then .reverted (call "ERC721NonexistentToken(uint256)" [i])
       else .returned s (values [.address (s.token.tokenApprovals i)])) ∧
    wrapper W D caller s 0#256 (message "isApprovedForAll(address,address)" [.address a, .address b]) =
      .returned s (values [.bool (s.token.operatorApprovals a b)]) := by
  refine ⟨?_, ?_, ?_, ?_, ?_⟩ <;>
    refine run_message mem D _ s _ _ rfl rfl ?_ (by simp [Spec.Router.erc721WrapperExample]) (words_lt _ _ (by simp [arg]) (by simp))
  · exact outcome_ok _ _
  · exact balance_view s s.token a
  · exact owner_view s s.token i
  · exact approved_view s s.token i
  · exact outcome_ok _ _

theorem answers (W : World τ) (D : Decoder) (asker : Address) (s : State τ) (a b : Address) (i : U256) :
    answer (wrapper W D) asker s "balanceOf(address)" [.address a] =
      (if a = ZERO then none else some (values [.uint256 (s.token.balances a)])) ∧
    answer (wrapper W D) asker s "ownerOf(uint256)" [.uint256 i] =
      (if s.token.owners i = ZERO then none else some (values [.address (s.token.owners i)])) ∧
    answer (wrapper W D) asker s "getApproved(uint256)" [.uint256 i] =
      (if s.token.owners i = ZERO then none else some (values [.address (s.token.tokenApprovals i)])) ∧
    answer (wrapper W D) asker s "isApprovedForAll(address,address)" [.address a, .address b] =
      some (values [.bool (s.token.operatorApprovals a b)]) := by
  obtain ⟨_, h1, h2, h3, h4⟩ := C111_views W D asker s a b i
  unfold answer
  rw [h1, h2, h3, h4]
  refine ⟨?_, ?_, ?_, rfl⟩
  · split <;> rfl
  · split <;> rfl
  · split <;> rfl

/-! ### Single steps -/

theorem lift_ok {α : Type} {x : Except Erc721.Err α} {a : α} : lift x = .ok a ↔ x = .ok a := by
  cases x <;> simp [lift]

theorem request_ok {W : World τ} {D : Decoder} {t t' : τ} {self_ under : Address} {m : Calls.Message} :
    request W keccak256 D t self_ under m = .ok t' ↔
      Obeys W D t self_ under (message (Props.Calls.signatureOf m) m.args) t' := by
  unfold request World.send Obeys
  rw [bytes_message]
  cases hc : W.hasCode t under with
  | false =>
    have h0 : (D.read [] []).isSome = true := by
      have := D.complete [] (by decide)
      rw [show encode [] = [] from rfl, show ([] : List Val).map Val.type = [] from rfl] at this
      rw [this]; rfl
    simp only [Bool.false_eq_true, if_false, h0, if_true, true_and, false_and, or_false, Except.ok.injEq]
    exact eq_comm
  | true =>
    simp only [if_true, Bool.true_eq_false, false_and, true_and, false_or]
    cases ho : W.call t self_ under (message (Props.Calls.signatureOf m) m.args) with
    | returned t1 data =>
      dsimp only
      by_cases h : (D.read [] data).isSome = true
      · rw [if_pos h]
        constructor
        · rintro h1; cases h1; exact ⟨data, rfl, h⟩
        · rintro ⟨d, h1, _⟩; cases h1; rfl
      · rw [if_neg h]
        constructor
        · intro h1; cases h1
        · rintro ⟨d, h1, h2⟩; cases h1; exact absurd h2 h
    | reverted data =>
      cases data with
      | nil => constructor
               · intro h; cases h
               · rintro ⟨d, h1, _⟩; cases h1
      | cons b bs => constructor
                     · intro h; cases h
                     · rintro ⟨d, h1, _⟩; cases h1

theorem request_take {W : World τ} {D : Decoder} {t t' : τ} {self_ under c : Address} {id : U256} :
    request W keccak256 D t self_ under (.transferFrom c self_ id) = .ok t' ↔
      Obeys W D t self_ under
        (message "transferFrom(address,address,uint256)" [.address c, .address self_, .uint256 id]) t' := by
  have h1 : Props.Calls.signatureOf (.transferFrom c self_ id) = "transferFrom(address,address,uint256)" := by
    rw [Props.Calls.signatureOf]
  rw [request_ok, h1, Calls.Message.args]

theorem request_give {W : World τ} {D : Decoder} {t t' : τ} {self_ under a : Address} {id : U256} :
    request W keccak256 D t self_ under (.safeTransferFrom self_ a id []) = .ok t' ↔
      Obeys W D t self_ under (message "safeTransferFrom(address,address,uint256,bytes)"
        [.address self_, .address a, .uint256 id, .bytes []]) t' := by
  have h1 : Props.Calls.signatureOf (.safeTransferFrom self_ a id []) = "safeTransferFrom(address,address,uint256,bytes)" := by
    rw [Props.Calls.signatureOf]
  rw [request_ok, h1, Calls.Message.args]

theorem answer_iff {D : Decoder} {o : Outcome Unit} {x : BitVec 32} :
    Calls.answer721 D o = .selector x ↔ ∃ d, o = .returned () d ∧ D.read [.bytes4] d = some [.bytes4 x] := by
  cases o with
  | reverted d => simp [Calls.answer721]
  | returned u d =>
    simp only [Calls.answer721]
    split
    · rename_i y hy
      simp [hy]
    · rename_i hn
      simp only [reduceCtorEq, false_iff, not_exists, not_and]
      rintro d' h1 h2
      cases h1
      exact hn _ h2

theorem welcomed {W : World τ} {D : Decoder} {t : τ} {self_ op src dst : Address} {id : U256} {data : Bytes} {t' : τ} :
    (Erc721.checkOnReceived (receivers W keccak256 D self_ t) op src dst id data = .ok () ∧
      t' = told W keccak256 self_ t op src dst id data) ↔ Welcomes W D t self_ op src dst id data t' := by
  rw [Erc721.checkOnReceived_ok]
  unfold receivers Calls.receivers721 told Welcomes
  rw [bytes_message]
  dsimp only
  show _ ↔ _ ∨ (_ ∧ ∃ out, W.call t self_ dst (message (Props.Calls.signatureOf (.onERC721Received op src id data))
    (Calls.Message.onERC721Received op src id data).args) = _ ∧ _)
  generalize hm : message (Props.Calls.signatureOf (.onERC721Received op src id data)) _ = msg
  cases hc : W.hasCode t dst with
  | false => simp
  | true =>
    simp only [if_true, Option.map_some, Option.some.injEq, forall_eq', Bool.true_eq_false, false_and, true_and, false_or]
    rw [bytes_message, hm, answer_iff]
    cases W.call t self_ dst msg with
    | reverted d => simp [forget]
    | returned t1 d =>
      constructor
      · rintro ⟨⟨d', h1, h2⟩, rfl⟩
        cases h1
        exact ⟨d, rfl, h2⟩
      · rintro ⟨d', h1, h2⟩
        cases h1
        exact ⟨⟨d, rfl, h2⟩, rfl⟩

theorem moved_iff {u u' : Erc721.State} (hu : Erc721.NoGhost u) {id : U256} {dst : Address}
    (hd : u.owners id ≠ ZERO ∨ dst ≠ ZERO) : u' = Erc721.updated u dst id ↔ Moved u u' id dst := by
  have hm : Moved u (Erc721.updated u dst id) id dst := by
    refine ⟨fun i => ?_, fun a => ?_, fun i => ?_, rfl, rfl⟩
    · show upd u.owners id dst i = _
      by_cases h : i = id
      · rw [h, upd_same, if_pos rfl]
      · rw [upd_ne _ _ h, if_neg h]
    · show Erc721.moveBal u.balances (u.owners id) dst a + _ = _
      unfold Erc721.moveBal
      by_cases h1 : u.owners id = ZERO <;> by_cases h2 : dst = ZERO <;> by_cases h3 : a = u.owners id <;>
        by_cases h4 : a = dst <;> by_cases h5 : a = ZERO <;> simp_all [upd_apply] <;> try bv_omega
    · show (if u.owners id ≠ ZERO then upd u.tokenApprovals id ZERO else u.tokenApprovals) i = _
      by_cases h : i = id
      · subst h
        by_cases h0 : u.owners i = ZERO
        · rw [if_neg (not_not.mpr h0), if_pos rfl, hu.appr i h0]
        · rw [if_pos h0, upd_same, if_pos rfl]
      · rw [if_neg h]
        split
        · rw [upd_ne _ _ h]
        · rfl
  constructor
  · rintro rfl; exact hm
  · rintro ⟨h1, h2, h3, h4, h5⟩
    obtain ⟨m1, m2, m3, m4, m5⟩ := hm
    generalize Erc721.updated u dst id = w at *
    have e1 : u'.owners = w.owners := funext fun i => (h1 i).trans (m1 i).symm
    have e2 : u'.balances = w.balances := funext fun a => (BitVec.add_left_inj _).mp ((h2 a).trans (m2 a).symm)
    have e3 : u'.tokenApprovals = w.tokenApprovals := funext fun i => (h3 i).trans (m3 i).symm
    have e4 := h4.trans m4.symm
    have e5 := h5.trans m5.symm
    cases u'; cases w
    simp_all

theorem mayMove_iff {u : Erc721.State} (hu : Erc721.NoGhost u) {c : Address} (hc : c ≠ ZERO) {id : U256} :
    (c = ZERO ∨ Erc721.isAuthorized u (u.owners id) c id = true) ↔ Spec.Erc721.MayMove u c id := by
  rw [← Erc721.authorized_iff hu hc]
  exact ⟨fun h => h.resolve_left hc, .inr⟩

theorem mayMove_owned {u : Erc721.State} {c : Address} {id : U256} (h : Spec.Erc721.MayMove u c id) :
    u.owners id ≠ ZERO := by
  obtain ⟨o, ho, _⟩ := h
  rw [Erc721.owner?_eq, Erc721.nobody_some] at ho
  rw [ho.1]; exact ho.2

theorem safeMint_ok {W : World τ} {D : Decoder} {s s' : State τ} {c a : Address} {id : U256} :
    safeMint W keccak256 D s c a id = .ok s' ↔ ∃ t', a ≠ ZERO ∧ s.token.owners id = ZERO ∧
      Welcomes W D s.world s.self_ c ZERO a id [] t' ∧
      s' = { s with token := Erc721.updated s.token a id, world := t' } := by
  unfold safeMint
  rw [bind_eq_ok]
  constructor
  · rintro ⟨u, h, h'⟩
    rw [lift_ok] at h
    obtain ⟨h1, h2⟩ := Erc721.then_check_ok.mp h
    obtain ⟨h3, h4, rfl⟩ := Erc721.mint_ok.mp h1
    exact ⟨_, h3, h4, welcomed.mp ⟨h2, rfl⟩, by injection h' with h'; exact h'.symm⟩
  · rintro ⟨t', h1, h2, h3, rfl⟩
    obtain ⟨h4, rfl⟩ := welcomed.mpr h3
    exact ⟨_, lift_ok.mpr (Erc721.then_check_ok.mpr ⟨Erc721.mint_ok.mpr ⟨h1, h2, rfl⟩, h4⟩), rfl⟩

theorem depositFor_ok {W : World τ} {D : Decoder} {c a : Address} (ids : List U256) {s s' : State τ}
    (hu : Erc721.NoGhost s.token) :
    depositFor W keccak256 D c a s ids = .ok s' ↔ ∃ u' t',
      Wraps W D s.self_ s.underlying c a ids s.token s.world u' t' ∧ s' = { s with token := u', world := t' } := by
  induction ids generalizing s with
  | nil =>
    unfold depositFor Wraps
    constructor
    · intro h; cases h; exact ⟨_, _, ⟨rfl, rfl⟩, rfl⟩
    · rintro ⟨_, _, ⟨rfl, rfl⟩, rfl⟩; rfl
  | cons id ids ih =>
    unfold depositFor Wraps
    rw [bind_eq_ok]
    constructor
    · rintro ⟨t1, h1, h⟩
      obtain ⟨s1, h2, h⟩ := bind_eq_ok.mp h
      obtain ⟨t2, h3, h4, h5, rfl⟩ := safeMint_ok.mp h2
      obtain ⟨u', t', h6, rfl⟩ := (ih (Wrapper721.noGhost_updated hu a id)).mp h
      exact ⟨u', t', ⟨t1, _, t2, request_take.mp h1, h3, h4, (moved_iff hu (.inr h3)).mp rfl, h5, h6⟩, rfl⟩
    · rintro ⟨u', t', ⟨t1, u1, t2, h1, h3, h4, h5, h6, h7⟩, rfl⟩
      have := (moved_iff hu (.inr h3)).mpr h5
      subst this
      refine ⟨t1, request_take.mpr h1, bind_eq_ok.mpr ⟨_, safeMint_ok.mpr ⟨t2, h3, h4, h6, rfl⟩, ?_⟩⟩
      exact (ih (Wrapper721.noGhost_updated hu a id)).mpr ⟨u', t', h7, rfl⟩

theorem withdrawTo_ok {W : World τ} {D : Decoder} {c a : Address} (hc : c ≠ ZERO) (ids : List U256) {s s' : State τ}
    (hu : Erc721.NoGhost s.token) :
    withdrawTo W keccak256 D c a s ids = .ok s' ↔ ∃ u' t',
      Unwraps W D s.self_ s.underlying c a ids s.token s.world u' t' ∧ s' = { s with token := u', world := t' } := by
  induction ids generalizing s with
  | nil =>
    unfold withdrawTo Unwraps
    constructor
    · intro h; cases h; exact ⟨_, _, ⟨rfl, rfl⟩, rfl⟩
    · rintro ⟨_, _, ⟨rfl, rfl⟩, rfl⟩; rfl
  | cons id ids ih =>
    unfold withdrawTo Unwraps
    rw [bind_eq_ok]
    constructor
    · rintro ⟨⟨o, u⟩, h1, h⟩
      obtain ⟨t1, h2, h⟩ := bind_eq_ok.mp h
      obtain ⟨h3, _, rfl⟩ := Erc721.update_ok.mp (lift_ok.mp h1)
      have h3 := (mayMove_iff hu hc).mp h3
      obtain ⟨u', t', h6, rfl⟩ := (ih (Wrapper721.noGhost_updated hu ZERO id)).mp h
      exact ⟨u', t', ⟨t1, _, h3, (moved_iff hu (.inl (mayMove_owned h3))).mp rfl, request_give.mp h2, h6⟩, rfl⟩
    · rintro ⟨u', t', ⟨t1, u1, h3, h5, h2, h7⟩, rfl⟩
      have := (moved_iff hu (.inl (mayMove_owned h3))).mpr h5
      subst this
      refine ⟨(s.token.owners id, _), lift_ok.mpr (Erc721.update_ok.mpr ⟨(mayMove_iff hu hc).mpr h3, rfl, rfl⟩),
        bind_eq_ok.mpr ⟨t1, request_give.mpr h2, ?_⟩⟩
      exact (ih (Wrapper721.noGhost_updated hu ZERO id)).mpr ⟨u', t', h7, rfl⟩

/-! ### Histories of the wrapped token -/

theorem run_one {u u' : Erc721.State} {tx : Erc721.Tx} (h : Erc721.exec u tx = .ok u') : u' = Erc721.run u [tx] := by
  show u' = runOf _ _ _
  simp only [runOf, List.foldl, stepOf]
  rw [h]

theorem run_trans {u : Erc721.State} {k l : List Erc721.Tx} : Erc721.run (Erc721.run u k) l = Erc721.run u (k ++ l) :=
  (runOf_append _ _ _ _).symm

theorem wraps_run {W : World τ} {D : Decoder} {self_ under c a : Address} (hc : c ≠ ZERO) (ids : List U256) {u u' : Erc721.State}
    {t t' : τ} (hu : Erc721.NoGhost u) (h : Wraps W D self_ under c a ids u t u' t') : ∃ txs, u' = Erc721.run u txs := by
  induction ids generalizing u t with
  | nil => exact ⟨[], h.1⟩
  | cons id ids ih =>
    obtain ⟨t1, u1, t2, h1, h3, h4, h5, h6, h7⟩ := h
    have := (moved_iff hu (.inr h3)).mpr h5
    subst this
    obtain ⟨l, h⟩ := ih (Wrapper721.noGhost_updated hu a id) h7
    refine ⟨⟨c, fun _ => none, .inr (.mint a id)⟩ :: l, ?_⟩
    rw [h, run_one (u' := Erc721.updated u a id) (tx := ⟨c, fun _ => none, .inr (.mint a id)⟩), run_trans]
    · rfl
    · unfold Erc721.exec
      rw [if_neg hc]
      exact Erc721.mint_ok.mpr ⟨h3, h4, rfl⟩

theorem unwraps_run {W : World τ} {D : Decoder} {self_ under c a : Address} (hc : c ≠ ZERO) (ids : List U256) {u u' : Erc721.State}
    {t t' : τ} (hu : Erc721.NoGhost u) (h : Unwraps W D self_ under c a ids u t u' t') : ∃ txs, u' = Erc721.run u txs := by
  induction ids generalizing u t with
  | nil => exact ⟨[], h.1⟩
  | cons id ids ih =>
    obtain ⟨t1, u1, h3, h5, h6, h7⟩ := h
    have := (moved_iff hu (.inl (mayMove_owned h3))).mpr h5
    subst this
    obtain ⟨l, h⟩ := ih (Wrapper721.noGhost_updated hu ZERO id) h7
    refine ⟨⟨c, fun _ => none, .inl (.burn id)⟩ :: l, ?_⟩
    rw [h, run_one (u' := Erc721.updated u ZERO id) (tx := ⟨c, fun _ => none, .inl (.burn id)⟩), run_trans]
    · rfl
    · unfold Erc721.exec
      rw [if_neg hc]
      exact Erc721.burn_ok.mpr ⟨(mayMove_iff hu hc).mpr h3, rfl⟩

/-- The wrapper is the same, its token has gone through some calls. -/
def Kept (s s' : State τ) : Prop :=
  (s'.self_ = s.self_ ∧ s'.underlying = s.underlying) ∧ ∃ txs, s'.token = Erc721.run s.token txs

theorem Kept.refl (s : State τ) : Kept s s := ⟨⟨rfl, rfl⟩, [], rfl⟩

theorem Kept.trans {s s1 s2 : State τ} (h : Kept s s1) (h' : Kept s1 s2) : Kept s s2 := by
  obtain ⟨⟨a1, a2⟩, ks, ak⟩ := h
  obtain ⟨⟨b1, b2⟩, ls, bk⟩ := h'
  exact ⟨⟨b1.trans a1, b2.trans a2⟩, ks ++ ls, by rw [bk, ak, run_trans]⟩

theorem onReceived_ok {W : World τ} {D : Decoder} {s s' : State τ} {c a : Address} {id : U256} :
    onReceived W keccak256 D s c a id = .ok s' ↔ s.underlying = c ∧ safeMint W keccak256 D s c a id = .ok s' := by
  unfold onReceived
  by_cases h : s.underlying = c
  · rw [if_neg (not_not.mpr h)]; exact ⟨fun h' => ⟨h, h'⟩, fun h' => h'.2⟩
  · rw [if_pos h]; exact ⟨fun h' => (by cases h'), fun h' => absurd h'.1 h⟩

theorem tokenCall_ok {W : World τ} {D : Decoder} {s s' : State τ} {c : Address} {k : TokenCall}
    (h : tokenCall W keccak256 D s c k = .ok s') : ∃ u t,
      Erc721.execUser (receivers W keccak256 D s.self_ s.world) s.token c k.toCall = .ok u ∧
      s' = { s with token := u, world := t } := by
  unfold tokenCall at h
  obtain ⟨u, h1, h2⟩ := bind_eq_ok.mp h
  exact ⟨u, _, lift_ok.mp h1, by injection h2 with h2; exact h2.symm⟩

theorem kept_act {W : World τ} {D : Decoder} {c : Address} (hc : c ≠ ZERO) {s s' : State τ} (hu : Erc721.NoGhost s.token) {op : Op}
    (h : act W D c s op = .ok s') : Kept s s' := by
  cases op with
  | depositFor a ids =>
    obtain ⟨u', t', h1, rfl⟩ := (depositFor_ok ids hu).mp h
    exact ⟨⟨rfl, rfl⟩, wraps_run hc ids hu h1⟩
  | withdrawTo a ids =>
    obtain ⟨u', t', h1, rfl⟩ := (withdrawTo_ok hc ids hu).mp h
    exact ⟨⟨rfl, rfl⟩, unwraps_run hc ids hu h1⟩
  | onReceived o a id data =>
    obtain ⟨_, h⟩ := onReceived_ok.mp h
    obtain ⟨t', h1, h2, _, rfl⟩ := safeMint_ok.mp h
    refine ⟨⟨rfl, rfl⟩, [⟨c, fun _ => none, .inr (.mint a id)⟩], run_one ?_⟩
    unfold Erc721.exec
    rw [if_neg hc]
    exact Erc721.mint_ok.mpr ⟨h1, h2, rfl⟩
  | token k =>
    obtain ⟨u, t, h1, rfl⟩ := tokenCall_ok h
    refine ⟨⟨rfl, rfl⟩, [⟨c, receivers W keccak256 D s.self_ s.world, .inl k.toCall⟩], run_one ?_⟩
    unfold Erc721.exec
    rw [if_neg hc]
    exact h1

theorem kept_call (W : World τ) (D : Decoder) {c : Address} (hc : c ≠ ZERO) {s : State τ} (hu : Erc721.NoGhost s.token)
    (v : U256) (i : Bytes) : Kept s ((wrapper W D c s v i).after s) := by
  rcases C111_no_other_effect W D c s v i with ⟨d, h⟩ | ⟨d, h⟩ | ⟨op, s', r, he, h, _, _⟩
  · rw [h]; exact .refl s
  · rw [h]; exact .refl s
  · rw [h]; exact kept_act hc hu (giving_eq_ok.mp he).1

theorem Kept.inv {s s' : State τ} (h : Kept s s') (hs : Spec.Erc721.Reachable s.token) : Spec.Erc721.Reachable s'.token := by
  obtain ⟨_, l, h⟩ := h
  obtain ⟨k, hk⟩ := hs
  exact ⟨k ++ l, by rw [h, hk, run_trans]⟩

theorem kept_play (W : World τ) (D : Decoder) (l : List (Step τ)) (hl : Signed l) (s : State τ)
    (hs : Spec.Erc721.Reachable s.token) : Kept s (nftsAfter W D s l) := by
  induction l generalizing s with
  | nil => exact .refl s
  | cons x l ih =>
    have hl' : Signed l := fun c v i h => hl c v i (List.mem_cons_of_mem _ h)
    cases x with
    | outside f => exact Kept.trans ⟨⟨rfl, rfl⟩, [], rfl⟩ (ih hl' { s with world := f s.world } hs)
    | call c v i =>
      have hk := kept_call W D (hl c v i List.mem_cons_self) (Erc721.reachable_inv hs).toNoGhost v i
      exact hk.trans (ih hl' _ (hk.inv hs))

theorem reached_token {W : World τ} {D : Decoder} {s : State τ} (h : NftsReached W D s) : Spec.Erc721.Reachable s.token := by
  obtain ⟨self_, under, t, l, hl, rfl⟩ := h
  exact (kept_play W D l hl (newNfts self_ under t) ⟨[], rfl⟩).inv ⟨[], rfl⟩

theorem reached_inv {W : World τ} {D : Decoder} {s : State τ} (h : NftsReached W D s) : Erc721.Inv s.token :=
  Erc721.reachable_inv (reached_token h)

/-- **C111** Address and underlying token of a wrapper never change. -/
theorem C111_fixed (W : World τ) (D : Decoder) (l : List (Step τ)) (hl : Signed l) {s : State τ} (hr : NftsReached W D s) :
    (nftsAfter W D s l).self_ = s.self_ ∧ (nftsAfter W D s l).underlying = s.underlying :=
  (kept_play W D l hl s (reached_token hr)).1

/-- **C111** Whatever the other contracts do: after any history every id has an owner or none; `ownerOf` answers it and `balanceOf`
answers how many ids an account owns (all of them, 2^256, count as 0). -/
theorem C111_outside (W : World τ) (D : Decoder) {s : State τ} (hr : NftsReached W D s) (asker : Address) :
    ∃ owner : U256 → Option Address,
      (∀ id, answer (wrapper W D) asker s "ownerOf(uint256)" [.uint256 id] = (owner id).map fun a => values [.address a]) ∧
      ∀ a, a ≠ ZERO → answer (wrapper W D) asker s "balanceOf(address)" [.address a] =
        some (values [.uint256 (BitVec.ofNat 256 (Finset.univ.filter fun id => owner id = some a).card)]) := by
  refine ⟨Spec.Erc721.owner? s.token, fun id => ?_, fun a ha => ?_⟩
  · rw [(answers W D asker s 0#160 0#160 id).2.1, Erc721.owner?_eq]
    unfold Spec.Erc721.nobody
    split <;> rfl
  · rw [(answers W D asker s a 0#160 0#256).1, if_neg ha, (reached_inv hr).count a ha, ← Erc721.owned_eq s.token ha]
    rfl

/-! ### The operations -/

theorem act_iff {W : World τ} {D : Decoder} {caller : Address} {s s' : State τ} {data : Bytes} (op : Op)
    (hl : (message (abi op).1 (abi op).2).length < 2 ^ 256) :
    wrapper W D caller s 0#256 (message (abi op).1 (abi op).2) = .returned s' data ↔
      act W D caller s op = .ok s' ∧ data = values (results op) := by
  rw [C111_call W D caller s op hl, Vault.reply_iff]
  unfold exec
  constructor
  · rintro ⟨r, h, rfl⟩
    obtain ⟨h1, rfl⟩ := giving_eq_ok.mp h
    exact ⟨h1, rfl⟩
  · rintro ⟨h, rfl⟩
    exact ⟨_, giving_eq_ok.mpr ⟨h, rfl⟩, rfl⟩

/-- **C111** `depositFor(a, ids)` succeeds exactly if the ids can be wrapped one after the other (the underlying token obeys
`transferFrom(sender, wrapper, id)`, there is no wrapped token `id`, and `a` takes it); it does that, answers true, and does
nothing else. -/
theorem C111_depositFor (W : World τ) (D : Decoder) (caller : Address) {s : State τ} (hr : NftsReached W D s)
    (a : Address) (ids : List U256) (s' : State τ) (data : Bytes)
    (hl : (message "depositFor(address,uint256[])" [.address a, .uints ids]).length < 2 ^ 256) :
    wrapper W D caller s 0#256 (message "depositFor(address,uint256[])" [.address a, .uints ids]) = .returned s' data ↔
      ∃ u t, Wraps W D s.self_ s.underlying caller a ids s.token s.world u t ∧ s' = { s with token := u, world := t } ∧
        data = values [.bool true] := by
  refine (act_iff (.depositFor a ids) hl).trans ?_
  show depositFor W keccak256 D caller a s ids = .ok s' ∧ _ ↔ _
  rw [depositFor_ok ids (reached_inv hr).toNoGhost]
  constructor
  · rintro ⟨⟨u, t, h1, h2⟩, h3⟩; exact ⟨u, t, h1, h2, h3⟩
  · rintro ⟨u, t, h1, h2, h3⟩; exact ⟨⟨u, t, h1, h2⟩, h3⟩

/-- **C111** `withdrawTo(a, ids)` succeeds exactly if the ids can be unwrapped one after the other (the sender may move the wrapped
token, and the underlying token obeys `safeTransferFrom(wrapper, a, id, "")`); it does that, answers true, and does nothing
else. -/
theorem C111_withdrawTo (W : World τ) (D : Decoder) (caller : Address) (hc : caller ≠ ZERO) {s : State τ} (hr : NftsReached W D s)
    (a : Address) (ids : List U256) (s' : State τ) (data : Bytes)
    (hl : (message "withdrawTo(address,uint256[])" [.address a, .uints ids]).length < 2 ^ 256) :
    wrapper W D caller s 0#256 (message "withdrawTo(address,uint256[])" [.address a, .uints ids]) = .returned s' data ↔
      ∃ u t, Unwraps W D s.self_ s.underlying caller a ids s.token s.world u t ∧ s' = { s with token := u, world := t } ∧
        data = values [.bool true] := by
  refine (act_iff (.withdrawTo a ids) hl).trans ?_
  show withdrawTo W keccak256 D caller a s ids = .ok s' ∧ _ ↔ _
  rw [withdrawTo_ok hc ids (reached_inv hr).toNoGhost]
  constructor
  · rintro ⟨⟨u, t, h1, h2⟩, h3⟩; exact ⟨u, t, h1, h2, h3⟩
  · rintro ⟨u, t, h1, h2, h3⟩; exact ⟨⟨u, t, h1, h2⟩, h3⟩

/-- **C111** `onErc721Received(operator, a, id, data)` succeeds exactly if the underlying token sends it, there is no wrapped token
`id`, and `a` takes it; it creates the token for `a`, answers the selector of `onERC721Received`, and does nothing else. -/
theorem C111_onReceived (W : World τ) (D : Decoder) (caller : Address) {s : State τ} (hr : NftsReached W D s)
    (o a : Address) (id : U256) (d : Bytes) (s' : State τ) (data : Bytes)
    (hl : (message "onErc721Received(address,address,uint256,bytes)"
      [.address o, .address a, .uint256 id, .bytes d]).length < 2 ^ 256) :
    wrapper W D caller s 0#256 (message "onErc721Received(address,address,uint256,bytes)"
        [.address o, .address a, .uint256 id, .bytes d]) = .returned s' data ↔
      ∃ u t, caller = s.underlying ∧ a ≠ ZERO ∧ s.token.owners id = ZERO ∧ Moved s.token u id a ∧
        Welcomes W D s.world s.self_ caller ZERO a id [] t ∧ s' = { s with token := u, world := t } ∧
        data = values [.bytes4 0x150b7a02#32] := by
  refine (act_iff (.onReceived o a id d) hl).trans ?_
  show onReceived W keccak256 D s caller a id = .ok s' ∧ _ ↔ _
  have hu := (reached_inv hr).toNoGhost
  rw [onReceived_ok, safeMint_ok]
  constructor
  · rintro ⟨⟨h0, t, h1, h2, h3, h4⟩, h5⟩
    exact ⟨_, t, h0.symm, h1, h2, (moved_iff hu (.inr h1)).mp rfl, h3, h4, h5⟩
  · rintro ⟨u, t, h0, h1, h2, h3, h4, h5, h6⟩
    have := (moved_iff hu (.inr h1)).mpr h3
    subst this
    exact ⟨⟨h0.symm, t, h1, h2, h4, h5⟩, h6⟩

/-- **C111** `transferFrom(src, dst, id)` of the wrapped token succeeds exactly if `dst` is not the zero address and the sender may
move the token, which `src` owns; it moves the token and does nothing else. -/
theorem C111_transferFrom (W : World τ) (D : Decoder) (caller : Address) (hc : caller ≠ ZERO) {s : State τ} (hr : NftsReached W D s)
    (src dst : Address) (id : U256) (s' : State τ) (data : Bytes) :
    wrapper W D caller s 0#256 (message "transferFrom(address,address,uint256)" [.address src, .address dst, .uint256 id]) =
        .returned s' data ↔
      ∃ u, dst ≠ ZERO ∧ Spec.Erc721.MayMove s.token caller id ∧ s.token.owners id = src ∧ Moved s.token u id dst ∧
        s' = { s with token := u } ∧ data = values [] := by
  refine (act_iff (.token (.transferFrom src dst id)) (words_lt _ _ (by simp [abi, arg]) (by simp [abi]))).trans ?_
  show tokenCall W keccak256 D s caller _ = .ok s' ∧ _ ↔ _
  have hu := (reached_inv hr).toNoGhost
  unfold tokenCall
  rw [bind_eq_ok]
  constructor
  · rintro ⟨⟨u, h1, h2⟩, h3⟩
    obtain ⟨k1, k2, k3, rfl⟩ := Erc721.transferFrom_ok.mp (lift_ok.mp h1)
    injection h2 with h2
    exact ⟨_, k1, (mayMove_iff hu hc).mp k2, k3, (moved_iff hu (.inr k1)).mp rfl, h2.symm, h3⟩
  · rintro ⟨u, k1, k2, k3, k4, rfl, h3⟩
    have := (moved_iff hu (.inr k1)).mpr k4
    exact ⟨⟨u, lift_ok.mpr (Erc721.transferFrom_ok.mpr ⟨k1, (mayMove_iff hu hc).mpr k2, k3, this⟩), rfl⟩, h3⟩

/-- **C111** `safeTransferFrom`, with data or without, succeeds exactly if moreover `dst` takes the token. -/
theorem C111_safeTransferFrom (W : World τ) (D : Decoder) (caller : Address) (hc : caller ≠ ZERO) {s : State τ}
    (hr : NftsReached W D s) (src dst : Address) (id : U256) (d : Bytes) (s' : State τ) (data : Bytes)
    (hl : (message "safeTransferFrom(address,address,uint256,bytes)"
      [.address src, .address dst, .uint256 id, .bytes d]).length < 2 ^ 256) :
    let Done (d : Bytes) : Prop := ∃ u t, dst ≠ ZERO ∧ Spec.Erc721.MayMove s.token caller id ∧ s.token.owners id = src ∧
      Moved s.token u id dst ∧ Welcomes W D s.world s.self_ caller src dst id d t ∧
      s' = { s with token := u, world := t } ∧ data = values []
    (wrapper W D caller s 0#256 (message "safeTransferFrom(address,address,uint256)"
        [.address src, .address dst, .uint256 id]) = .returned s' data ↔ Done []) ∧
    (wrapper W D caller s 0#256 (message "safeTransferFrom(address,address,uint256,bytes)"
        [.address src, .address dst, .uint256 id, .bytes d]) = .returned s' data ↔ Done d) := by
  intro Done
  have hu := (reached_inv hr).toNoGhost
  have key : ∀ d, (∃ u, lift (Erc721.safeTransferFromWithData (receivers W keccak256 D s.self_ s.world) s.token caller src dst id d)
        = .ok u ∧ (.ok { s with token := u, world := told W keccak256 s.self_ s.world caller src dst id d } : Except Err _)
          = .ok s') ∧ data = values [] ↔ Done d := by
    intro d
    constructor
    · rintro ⟨⟨u, h1, h2⟩, h3⟩
      obtain ⟨h1, h4⟩ := Erc721.then_check_ok.mp (lift_ok.mp h1)
      obtain ⟨k1, k2, k3, rfl⟩ := Erc721.transferFrom_ok.mp h1
      injection h2 with h2
      exact ⟨_, _, k1, (mayMove_iff hu hc).mp k2, k3, (moved_iff hu (.inr k1)).mp rfl, welcomed.mp ⟨h4, rfl⟩, h2.symm, h3⟩
    · rintro ⟨u, t, k1, k2, k3, k4, k5, rfl, h3⟩
      have := (moved_iff hu (.inr k1)).mpr k4
      obtain ⟨k6, rfl⟩ := welcomed.mpr k5
      exact ⟨⟨u, lift_ok.mpr (Erc721.then_check_ok.mpr
        ⟨Erc721.transferFrom_ok.mpr ⟨k1, (mayMove_iff hu hc).mpr k2, k3, this⟩, k6⟩), rfl⟩, h3⟩
  constructor
  · refine (act_iff (.token (.safeTransferFrom src dst id)) (words_lt _ _ (by simp [abi, arg]) (by simp [abi]))).trans ?_
    show tokenCall W keccak256 D s caller _ = .ok s' ∧ _ ↔ _
    unfold tokenCall
    rw [bind_eq_ok]
    exact key []
  · refine (act_iff (.token (.safeTransferFromWithData src dst id d)) hl).trans ?_
    show tokenCall W keccak256 D s caller _ = .ok s' ∧ _ ↔ _
    unfold tokenCall
    rw [bind_eq_ok]
    exact key d

/-- **C111** `approve(p, id)` of the wrapped token succeeds exactly if the sender owns the token or is an operator of its owner, and
`setApprovalForAll(p, b)` exactly if `p` is not the zero address; each does what it says and nothing else. -/
theorem C111_approvals (W : World τ) (D : Decoder) (caller : Address) (hc : caller ≠ ZERO) (s : State τ)
    (p : Address) (id : U256) (b : Bool) (s' : State τ) (data : Bytes) :
    (wrapper W D caller s 0#256 (message "approve(address,uint256)" [.address p, .uint256 id]) = .returned s' data ↔
      s.token.owners id ≠ ZERO ∧
      (s.token.owners id = caller ∨ s.token.operatorApprovals (s.token.owners id) caller = true) ∧
      s' = { s with token := { s.token with
        tokenApprovals := fun i => if i = id then p else s.token.tokenApprovals i
        log := s.token.log ++ [.approval (s.token.owners id) p id] } } ∧ data = values []) ∧
    (wrapper W D caller s 0#256 (message "setApprovalForAll(address,bool)" [.address p, .bool b]) = .returned s' data ↔
      p ≠ ZERO ∧
      s' = { s with token := { s.token with
        operatorApprovals := fun o q => if o = caller ∧ q = p then b else s.token.operatorApprovals o q
        log := s.token.log ++ [.approvalForAll caller p b] } } ∧ data = values []) := by
  constructor
  · refine (act_iff (.token (.approve p id)) (words_lt _ _ (by simp [abi, arg]) (by simp [abi]))).trans ?_
    show tokenCall W keccak256 D s caller _ = .ok s' ∧ _ ↔ _
    have he : (fun i => if i = id then p else s.token.tokenApprovals i) = upd s.token.tokenApprovals id p := by
      funext i; rw [upd_apply]
    unfold tokenCall
    rw [bind_eq_ok, he]
    constructor
    · rintro ⟨⟨u, h1, h2⟩, h3⟩
      obtain ⟨k1, k2, rfl⟩ := (Erc721.approve_ok hc).mp (lift_ok.mp h1)
      injection h2 with h2
      exact ⟨k1, k2, h2.symm, h3⟩
    · rintro ⟨k1, k2, rfl, h3⟩
      exact ⟨⟨_, lift_ok.mpr ((Erc721.approve_ok hc).mpr ⟨k1, k2, rfl⟩), rfl⟩, h3⟩
  · refine (act_iff (.token (.setApprovalForAll p b)) (words_lt _ _ (by simp [abi, arg]) (by simp [abi]))).trans ?_
    show tokenCall W keccak256 D s caller _ = .ok s' ∧ _ ↔ _
    have he : (fun o q => if o = caller ∧ q = p then b else s.token.operatorApprovals o q) =
        upd2 s.token.operatorApprovals caller p b := by
      funext o q; rw [upd2_apply]
    unfold tokenCall
    rw [bind_eq_ok, he]
    constructor
    · rintro ⟨⟨u, h1, h2⟩, h3⟩
      obtain ⟨k1, rfl⟩ := Erc721.setApprovalForAll_ok.mp (lift_ok.mp h1)
      injection h2 with h2
      exact ⟨k1, h2.symm, h3⟩
    · rintro ⟨k1, rfl, h3⟩
      exact ⟨⟨_, lift_ok.mpr (Erc721.setApprovalForAll_ok.mpr ⟨k1, rfl⟩), rfl⟩, h3⟩

/-! ### What can happen to a wrapped token -/

theorem wraps_effect {W : World τ} {D : Decoder} {self_ under c a : Address} (ids : List U256) {u u' : Erc721.State} {t t' : τ}
    (h : Wraps W D self_ under c a ids u t u' t') :
    (∀ id, u'.owners id = if id ∈ ids then a else u.owners id) ∧ (∀ id ∈ ids, u.owners id = ZERO ∧ a ≠ ZERO ∧
      ∃ t1 t2, Obeys W D t1 self_ under
        (message "transferFrom(address,address,uint256)" [.address c, .address self_, .uint256 id]) t2) ∧ ids.Nodup := by
  induction ids generalizing u t with
  | nil => obtain ⟨rfl, _⟩ := h; exact ⟨fun id => by simp, fun id h => by simp at h, List.nodup_nil⟩
  | cons id ids ih =>
    obtain ⟨t1, u1, t2, h1, h2, h3, h4, _, h5⟩ := h
    obtain ⟨k1, k2, k3⟩ := ih h5
    have hn : id ∉ ids := by
      intro hm
      have := (k2 id hm).1
      rw [h4.owners, if_pos rfl] at this
      exact h2 this
    refine ⟨fun i => ?_, fun i hi => ?_, List.nodup_cons.mpr ⟨hn, k3⟩⟩
    · rw [k1, h4.owners]
      by_cases e : i = id
      · subst e; simp
      · simp [e]
    · rcases List.mem_cons.mp hi with rfl | hi
      · exact ⟨h3, h2, _, _, h1⟩
      · obtain ⟨j1, j2, j3⟩ := k2 i hi
        refine ⟨?_, j2, j3⟩
        rw [h4.owners, if_neg (show ¬ i = id from fun e => hn (e ▸ hi))] at j1
        exact j1

theorem mayMove_moved {u u' : Erc721.State} {id i : U256} {a c : Address} (h : Moved u u' id a) (hi : i ≠ id)
    (hm : Spec.Erc721.MayMove u' c i) : Spec.Erc721.MayMove u c i := by
  obtain ⟨o, h1, h2⟩ := hm
  have e1 : u'.owners i = u.owners i := by rw [h.owners, if_neg hi]
  have e2 : u'.tokenApprovals i = u.tokenApprovals i := by rw [h.approvals, if_neg hi]
  refine ⟨o, ?_, ?_⟩
  · rw [Erc721.owner?_eq] at h1 ⊢; rw [← e1]; exact h1
  · rcases h2 with h2 | h2 | h2
    · exact .inl h2
    · exact .inr (.inl (by unfold Erc721.isApprovedForAll at *; rw [← h.operators]; exact h2))
    · refine .inr (.inr ?_)
      unfold Spec.Erc721.approved? Erc721.getApproved Erc721.requireOwned Erc721.ownerOfInternal Erc721.getApprovedInternal at *
      rw [e1, e2] at h2
      exact h2

theorem unwraps_effect {W : World τ} {D : Decoder} {self_ under c a : Address} (ids : List U256) {u u' : Erc721.State} {t t' : τ}
    (h : Unwraps W D self_ under c a ids u t u' t') :
    (∀ id, u'.owners id = if id ∈ ids then ZERO else u.owners id) ∧ (∀ id ∈ ids, Spec.Erc721.MayMove u c id ∧
      ∃ t1 t2, Obeys W D t1 self_ under (message "safeTransferFrom(address,address,uint256,bytes)"
        [.address self_, .address a, .uint256 id, .bytes []]) t2) ∧ ids.Nodup := by
  induction ids generalizing u t with
  | nil => obtain ⟨rfl, _⟩ := h; exact ⟨fun id => by simp, fun id h => by simp at h, List.nodup_nil⟩
  | cons id ids ih =>
    obtain ⟨t1, u1, h1, h2, h3, h4⟩ := h
    obtain ⟨k1, k2, k3⟩ := ih h4
    have hn : id ∉ ids := by
      intro hm
      have := mayMove_owned (k2 id hm).1
      rw [h2.owners, if_pos rfl] at this
      exact this rfl
    refine ⟨fun i => ?_, fun i hi => ?_, List.nodup_cons.mpr ⟨hn, k3⟩⟩
    · rw [k1, h2.owners]
      by_cases e : i = id
      · subst e; simp
      · simp [e]
    · rcases List.mem_cons.mp hi with rfl | hi
      · exact ⟨h1, _, _, h3⟩
      · obtain ⟨j1, j2⟩ := k2 i hi
        exact ⟨mayMove_moved h2 (fun e => hn (e ▸ hi)) j1, j2⟩

/-- What a successful transfer or approval of the wrapped token does to owners. -/
theorem token_owners {R : Erc721.Receivers} {u u' : Erc721.State} {c : Address} (hc : c ≠ ZERO) (hu : Erc721.NoGhost u)
    {k : TokenCall} (h : Erc721.execUser R u c k.toCall = .ok u') (id : U256) :
    (u.owners id = ZERO ↔ u'.owners id = ZERO) := by
  have mv : ∀ {dst i}, (c = ZERO ∨ Erc721.isAuthorized u (u.owners i) c i = true) → dst ≠ ZERO →
      (u.owners id = ZERO ↔ (Erc721.updated u dst i).owners id = ZERO) := by
    intro dst i ha hd
    have h0 := mayMove_owned ((mayMove_iff hu hc).mp ha)
    show _ ↔ upd u.owners i dst id = ZERO
    by_cases e : id = i
    · subst e; rw [upd_same]; exact ⟨fun h => absurd h h0, fun h => absurd h hd⟩
    · rw [upd_ne _ _ e]
  cases k with
  | transferFrom src dst i =>
    obtain ⟨h1, h2, _, rfl⟩ := Erc721.transferFrom_ok.mp h
    exact mv h2 h1
  | safeTransferFrom src dst i =>
    obtain ⟨h1, h2, _, rfl⟩ := Erc721.transferFrom_ok.mp (Erc721.then_check_ok.mp h).1
    exact mv h2 h1
  | safeTransferFromWithData src dst i data =>
    obtain ⟨h1, h2, _, rfl⟩ := Erc721.transferFrom_ok.mp (Erc721.then_check_ok.mp h).1
    exact mv h2 h1
  | approve dst i =>
    obtain ⟨_, _, rfl⟩ := (Erc721.approve_ok hc).mp h
    exact Iff.rfl
  | setApprovalForAll p b =>
    obtain ⟨_, rfl⟩ := Erc721.setApprovalForAll_ok.mp h
    exact Iff.rfl

theorem owner_none {W : World τ} {D : Decoder} {asker : Address} {s : State τ} {id : U256} :
    answer (wrapper W D) asker s "ownerOf(uint256)" [.uint256 id] = none ↔ s.token.owners id = ZERO := by
  rw [(answers W D asker s 0#160 0#160 id).2.1]
  by_cases h : s.token.owners id = ZERO
  · simp [h]
  · simp [h]

theorem owner_some {W : World τ} {D : Decoder} {asker a : Address} {s : State τ} {id : U256} :
    answer (wrapper W D) asker s "ownerOf(uint256)" [.uint256 id] = some (values [.address a]) ↔
      s.token.owners id = a ∧ a ≠ ZERO := by
  rw [(answers W D asker s 0#160 0#160 id).2.1]
  by_cases h : s.token.owners id = ZERO
  · rw [if_pos h]
    constructor
    · intro h; cases h
    · rintro ⟨rfl, h1⟩; exact absurd h h1
  · rw [if_neg h]
    constructor
    · intro h1
      injection h1 with h1
      have := address_inj h1
      exact ⟨this, this ▸ h⟩
    · rintro ⟨rfl, _⟩; rfl

/-- **C111** Whatever is sent, and whatever the other contracts do: a wrapped token comes into being only in a call
`depositFor(a, ids)` with its id, for `a`, and then the underlying token obeyed `transferFrom(sender, wrapper, id)`; or in a call
`onErc721Received(_, a, id, _)` that the underlying token sent, for `a`. -/
theorem C111_wrapped (W : World τ) (D : Decoder) {s : State τ} (hr : NftsReached W D s) (x : Step τ) (hx : Signed [x])
    (asker a : Address) (id : U256) (hb : answer (wrapper W D) asker s "ownerOf(uint256)" [.uint256 id] = none)
    (ha : answer (wrapper W D) asker (nftsAfter W D s [x]) "ownerOf(uint256)" [.uint256 id] = some (values [.address a])) :
    ∃ caller input, x = .call caller 0#256 input ∧
      ((∃ ids t t', id ∈ ids ∧ Says D input "depositFor(address,uint256[])" [.address a, .uints ids] ∧
        Obeys W D t s.self_ s.underlying
          (message "transferFrom(address,address,uint256)" [.address caller, .address s.self_, .uint256 id]) t') ∨
      (caller = s.underlying ∧ ∃ o d, Says D input "onErc721Received(address,address,uint256,bytes)"
        [.address o, .address a, .uint256 id, .bytes d])) := by
  rw [owner_none] at hb
  rw [owner_some] at ha
  obtain ⟨ha, h0⟩ := ha
  have hu := (reached_inv hr).toNoGhost
  cases x with
  | outside f => exact absurd (ha.symm.trans hb) h0
  | call c v i =>
    have hc := hx c v i List.mem_cons_self
    change ((wrapper W D c s v i).after s).token.owners id = a at ha
    rcases C111_no_other_effect W D c s v i with ⟨d, h⟩ | ⟨d, h⟩ | ⟨op, s', r, he, h, hv, hs⟩
    · rw [h] at ha; exact absurd (ha.symm.trans hb) h0
    · rw [h] at ha; exact absurd (ha.symm.trans hb) h0
    · rw [h] at ha
      change s'.token.owners id = a at ha
      subst hv
      refine ⟨c, i, rfl, ?_⟩
      have he := (giving_eq_ok.mp he).1
      cases op with
      | depositFor a' ids =>
        obtain ⟨u', t', h1, rfl⟩ := (depositFor_ok ids hu).mp he
        obtain ⟨k1, k2, _⟩ := wraps_effect ids h1
        have k := k1 id
        change u'.owners id = a at ha
        by_cases hm : id ∈ ids
        · rw [if_pos hm, ha] at k
          subst k
          obtain ⟨_, _, t1, t2, h2⟩ := k2 id hm
          exact .inl ⟨ids, t1, t2, hm, hs, h2⟩
        · rw [if_neg hm, ha, hb] at k; exact absurd k h0
      | withdrawTo a' ids =>
        obtain ⟨u', t', h1, rfl⟩ := (withdrawTo_ok hc ids hu).mp he
        obtain ⟨k1, _, _⟩ := unwraps_effect ids h1
        have k := k1 id
        change u'.owners id = a at ha
        rw [ha, hb, ite_self] at k
        exact absurd k h0
      | onReceived o a' id' d =>
        obtain ⟨hn, he⟩ := onReceived_ok.mp he
        obtain ⟨t', h1, h2, _, rfl⟩ := safeMint_ok.mp he
        change upd s.token.owners id' a' id = a at ha
        by_cases e : id = id'
        · subst e
          rw [upd_same] at ha
          subst ha
          exact .inr ⟨hn.symm, o, d, hs⟩
        · rw [upd_ne _ _ e, hb] at ha; exact absurd ha.symm h0
      | token k =>
        obtain ⟨u, t, h1, rfl⟩ := tokenCall_ok he
        exact absurd (ha.symm.trans ((token_owners hc hu h1 id).mp hb)) h0

/-- **C111** Whatever is sent, and whatever the other contracts do: a wrapped token goes out of being only in a call
`withdrawTo(dst, ids)` with its id, from somebody who may move it, and then the underlying token obeyed
`safeTransferFrom(wrapper, dst, id, "")`. -/
theorem C111_unwrapped (W : World τ) (D : Decoder) {s : State τ} (hr : NftsReached W D s) (x : Step τ) (hx : Signed [x])
    (asker a : Address) (id : U256)
    (hb : answer (wrapper W D) asker s "ownerOf(uint256)" [.uint256 id] = some (values [.address a]))
    (ha : answer (wrapper W D) asker (nftsAfter W D s [x]) "ownerOf(uint256)" [.uint256 id] = none) :
    ∃ caller input dst ids t t', x = .call caller 0#256 input ∧ id ∈ ids ∧
      Says D input "withdrawTo(address,uint256[])" [.address dst, .uints ids] ∧ Spec.Erc721.MayMove s.token caller id ∧
      Obeys W D t s.self_ s.underlying (message "safeTransferFrom(address,address,uint256,bytes)"
        [.address s.self_, .address dst, .uint256 id, .bytes []]) t' := by
  rw [owner_some] at hb
  rw [owner_none] at ha
  obtain ⟨hb, h0⟩ := hb
  have hu := (reached_inv hr).toNoGhost
  cases x with
  | outside f => exact absurd (hb.symm.trans ha) h0
  | call c v i =>
    have hc := hx c v i List.mem_cons_self
    change ((wrapper W D c s v i).after s).token.owners id = ZERO at ha
    rcases C111_no_other_effect W D c s v i with ⟨d, h⟩ | ⟨d, h⟩ | ⟨op, s', r, he, h, hv, hs⟩
    · rw [h] at ha; exact absurd (hb.symm.trans ha) h0
    · rw [h] at ha; exact absurd (hb.symm.trans ha) h0
    · rw [h] at ha
      change s'.token.owners id = ZERO at ha
      subst hv
      have he := (giving_eq_ok.mp he).1
      cases op with
      | depositFor a' ids =>
        obtain ⟨u', t', h1, rfl⟩ := (depositFor_ok ids hu).mp he
        obtain ⟨k1, k2, _⟩ := wraps_effect ids h1
        have k := k1 id
        change u'.owners id = ZERO at ha
        by_cases hm : id ∈ ids
        · exact absurd (hb.symm.trans (k2 id hm).1) h0
        · rw [if_neg hm, ha, hb] at k; exact absurd k.symm h0
      | withdrawTo a' ids =>
        obtain ⟨u', t', h1, rfl⟩ := (withdrawTo_ok hc ids hu).mp he
        obtain ⟨k1, k2, _⟩ := unwraps_effect ids h1
        have k := k1 id
        change u'.owners id = ZERO at ha
        by_cases hm : id ∈ ids
        · obtain ⟨h2, t1, t2, h3⟩ := k2 id hm
          exact ⟨c, i, a', ids, t1, t2, rfl, hm, hs, h2, h3⟩
        · rw [if_neg hm, ha, hb] at k; exact absurd k.symm h0
      | onReceived o a' id' d =>
        obtain ⟨hn, he⟩ := onReceived_ok.mp he
        obtain ⟨t', h1, h2, _, rfl⟩ := safeMint_ok.mp he
        change upd s.token.owners id' a' id = ZERO at ha
        by_cases e : id = id'
        · subst e; exact absurd (hb.symm.trans h2) h0
        · rw [upd_ne _ _ e, hb] at ha; exact absurd ha h0
      | token k =>
        obtain ⟨u, t, h1, rfl⟩ := tokenCall_ok he
        exact absurd (hb.symm.trans ((token_owners hc hu h1 id).mpr ha)) h0

/-- **C111** Whatever is sent, and whatever the other contracts do: if the answer to `ownerOf(id)` was `a` and is another after a
step, the step is a transaction to the wrapper, and `a` sent it, or `getApproved(id)` had answered the sender, or
`isApprovedForAll` had answered that the sender is an operator of `a`. -/
theorem C111_no_theft (W : World τ) (D : Decoder) {s : State τ} (hr : NftsReached W D s) (x : Step τ) (hx : Signed [x])
    (asker a : Address) (id : U256)
    (hb : answer (wrapper W D) asker s "ownerOf(uint256)" [.uint256 id] = some (values [.address a]))
    (ha : answer (wrapper W D) asker (nftsAfter W D s [x]) "ownerOf(uint256)" [.uint256 id] ≠ some (values [.address a])) :
    ∃ caller value input, x = .call caller value input ∧ (caller = a ∨
      answer (wrapper W D) asker s "getApproved(uint256)" [.uint256 id] = some (values [.address caller]) ∨
      answer (wrapper W D) asker s "isApprovedForAll(address,address)" [.address a, .address caller] =
        some (values [.bool true])) := by
  have hb0 := hb
  rw [owner_some] at hb
  rw [ne_eq, owner_some] at ha
  obtain ⟨hb, h0⟩ := hb
  have ha : (nftsAfter W D s [x]).token.owners id ≠ a := fun e => ha ⟨e, h0⟩
  have hu := (reached_inv hr).toNoGhost
  have h0' : s.token.owners id ≠ ZERO := hb ▸ h0
  cases x with
  | outside f => exact absurd hb ha
  | call c v i =>
    have hc := hx c v i List.mem_cons_self
    refine ⟨c, v, i, rfl, ?_⟩
    rw [(answers W D asker s 0#160 0#160 id).2.2.1, (answers W D asker s a c 0#256).2.2.2, if_neg h0']
    suffices c = a ∨ s.token.tokenApprovals id = c ∨ s.token.operatorApprovals a c = true by
      rcases this with h | h | h
      · exact .inl h
      · exact .inr (.inl (by rw [h]))
      · exact .inr (.inr (by rw [h]))
    change ((wrapper W D c s v i).after s).token.owners id ≠ a at ha
    rcases C111_no_other_effect W D c s v i with ⟨d, h⟩ | ⟨d, h⟩ | ⟨op, s', r, he, h, hv, hs⟩
    · rw [h] at ha; exact absurd hb ha
    · rw [h] at ha; exact absurd hb ha
    · rw [h] at ha
      change s'.token.owners id ≠ a at ha
      have he := (giving_eq_ok.mp he).1
      cases op with
      | depositFor a' ids =>
        obtain ⟨u', t', h1, rfl⟩ := (depositFor_ok ids hu).mp he
        obtain ⟨k1, k2, _⟩ := wraps_effect ids h1
        have k := k1 id
        by_cases hm : id ∈ ids
        · exact absurd (k2 id hm).1 h0'
        · rw [if_neg hm, hb] at k; exact absurd k ha
      | withdrawTo a' ids =>
        obtain ⟨u', t', h1, rfl⟩ := (withdrawTo_ok hc ids hu).mp he
        obtain ⟨k1, k2, _⟩ := unwraps_effect ids h1
        have k := k1 id
        by_cases hm : id ∈ ids
        · have h2 := (Erc721.authorized_iff hu hc).mpr (k2 id hm).1
          unfold Erc721.isAuthorized Erc721.isApprovedForAll Erc721.getApprovedInternal at h2
          rw [hb] at h2
          simp only [Bool.and_eq_true, Bool.or_eq_true, decide_eq_true_eq] at h2
          rcases h2.2 with (h2 | h2) | h2
          · exact .inl h2.symm
          · exact .inr (.inr h2)
          · exact .inr (.inl h2)
        · rw [if_neg hm, hb] at k; exact absurd k ha
      | onReceived o a' id' d =>
        obtain ⟨hn, he⟩ := onReceived_ok.mp he
        obtain ⟨t', h1, h2, _, rfl⟩ := safeMint_ok.mp he
        exact Props.Contracts.theft (R := fun _ => none) hc hb h0 ha (.inr ⟨a', id', Erc721.mint_ok.mpr ⟨h1, h2, rfl⟩⟩)
      | token k =>
        obtain ⟨u, t, h1, rfl⟩ := tokenCall_ok he
        exact Props.Contracts.theft hc hb h0 ha (.inl ⟨k.toCall, h1⟩)

/-! ### Refusals -/

theorem revert_failed (a : Address) : revert (.failedOperation a) = call "Erc721FailedOperation(address)" [addr a] := by
  unfold revert errReply
  rw [error_bytes "Erc721FailedOperation" _ "Erc721FailedOperation(address)" (ws := [addr a]) rfl rfl]

theorem revert_unsupported (a : Address) : revert (.unsupportedToken a) = call "ERC721UnsupportedToken(address)" [addr a] := by
  unfold revert errReply
  rw [error_bytes "ERC721UnsupportedToken" _ "ERC721UnsupportedToken(address)" (ws := [addr a]) rfl rfl]

theorem request_reverted {W : World τ} {D : Decoder} {t : τ} {self_ under : Address} {m : Calls.Message} {d : Bytes}
    (hc : W.hasCode t under = true) (h : W.call t self_ under (m.bytes keccak256) = .reverted d) :
    ∃ e, request W keccak256 D t self_ under m = .error e ∧
      revert e = if d = [] then call "Erc721FailedOperation(address)" [addr under] else d := by
  unfold request World.send
  rw [if_pos hc, h]
  cases d with
  | nil => exact ⟨_, rfl, by rw [revert_failed, if_pos rfl]⟩
  | cons b bs => exact ⟨_, rfl, rfl⟩

/-- **C111** What the wrapper reverts with when somebody else refuses.  If the underlying token reverts `transferFrom` for the first
id of a deposit, or `safeTransferFrom` for the first id of a withdrawal by somebody who may move the wrapped token, the wrapper reverts
with the same bytes, or with `Erc721FailedOperation(underlying)` if there are none; if somebody else than the underlying token
calls `onErc721Received`, it reverts with `ERC721UnsupportedToken(sender)`. -/
theorem C111_refused (W : World τ) (D : Decoder) (caller : Address) (hc : caller ≠ ZERO) {s : State τ} (hr : NftsReached W D s)
    (o a : Address) (id : U256) (ids : List U256) (d r : Bytes)
    (h1 : (message "depositFor(address,uint256[])" [.address a, .uints (id :: ids)]).length < 2 ^ 256)
    (h2 : (message "withdrawTo(address,uint256[])" [.address a, .uints (id :: ids)]).length < 2 ^ 256)
    (h3 : (message "onErc721Received(address,address,uint256,bytes)"
      [.address o, .address a, .uint256 id, .bytes d]).length < 2 ^ 256) (hu : W.hasCode s.world s.underlying = true) :
    let reason := if r = [] then call "Erc721FailedOperation(address)" [addr s.underlying] else r
    (W.call s.world s.self_ s.underlying (message "transferFrom(address,address,uint256)"
        [.address caller, .address s.self_, .uint256 id]) = .reverted r →
      wrapper W D caller s 0#256 (message "depositFor(address,uint256[])" [.address a, .uints (id :: ids)]) =
        .reverted reason) ∧
    (Spec.Erc721.MayMove s.token caller id →
      W.call s.world s.self_ s.underlying (message "safeTransferFrom(address,address,uint256,bytes)"
        [.address s.self_, .address a, .uint256 id, .bytes []]) = .reverted r →
      wrapper W D caller s 0#256 (message "withdrawTo(address,uint256[])" [.address a, .uints (id :: ids)]) =
        .reverted reason) ∧
    (caller ≠ s.underlying →
      wrapper W D caller s 0#256 (message "onErc721Received(address,address,uint256,bytes)"
        [.address o, .address a, .uint256 id, .bytes d]) =
        .reverted (call "ERC721UnsupportedToken(address)" [addr caller])) := by
  intro reason
  have hg := (reached_inv hr).toNoGhost
  have fin : ∀ {op : Op} {e : Err}, (message (abi op).1 (abi op).2).length < 2 ^ 256 → act W D caller s op = .error e →
      wrapper W D caller s 0#256 (message (abi op).1 (abi op).2) = .reverted (revert e) := by
    intro op e hl h
    rw [C111_call W D caller s op hl]
    unfold exec
    rw [h]; rfl
  refine ⟨fun h => ?_, fun hm h => ?_, fun h => ?_⟩
  · have hb : (Calls.Message.transferFrom caller s.self_ id).bytes keccak256 =
        message "transferFrom(address,address,uint256)" [.address caller, .address s.self_, .uint256 id] := by
      rw [bytes_message, Props.Calls.signatureOf, Calls.Message.args]
    obtain ⟨e, he, hx⟩ := request_reverted (D := D) (m := .transferFrom caller s.self_ id) hu (by rw [hb]; exact h)
    refine (fin (op := .depositFor a (id :: ids)) (e := e) h1 ?_).trans (by rw [hx])
    show depositFor W keccak256 D caller a s (id :: ids) = _
    unfold depositFor
    rw [he]; rfl
  · have hb : (Calls.Message.safeTransferFrom s.self_ a id []).bytes keccak256 =
        message "safeTransferFrom(address,address,uint256,bytes)" [.address s.self_, .address a, .uint256 id, .bytes []] := by
      rw [bytes_message, Props.Calls.signatureOf, Calls.Message.args]
    obtain ⟨e, he, hx⟩ := request_reverted (D := D) (m := .safeTransferFrom s.self_ a id []) hu (by rw [hb]; exact h)
    refine (fin (op := .withdrawTo a (id :: ids)) (e := e) h2 ?_).trans (by rw [hx])
    show withdrawTo W keccak256 D caller a s (id :: ids) = _
    unfold withdrawTo
    rw [Erc721.update_ok.mpr ⟨(mayMove_iff hg hc).mpr hm, rfl, rfl⟩, he]; rfl
  · refine (fin (op := .onReceived o a id d) (e := .unsupportedToken caller) h3 ?_).trans (by rw [revert_unsupported])
    show onReceived W keccak256 D s caller a id = _
    unfold onReceived
    rw [if_pos (fun e => h e.symm)]

/-- **C111** (finding) While there is no code at the address of the underlying token, anybody can wrap any id that is not wrapped,
for any account without code, though nothing is deposited. -/
theorem C111_nothing_there (W : World τ) (D : Decoder) (caller : Address) {s : State τ} (hr : NftsReached W D s)
    (a : Address) (id : U256) (hu : W.hasCode s.world s.underlying = false) (ha : W.hasCode s.world a = false) (h0 : a ≠ ZERO)
    (ho : s.token.owners id = ZERO) :
    ∃ u, Moved s.token u id a ∧
      wrapper W D caller s 0#256 (message "depositFor(address,uint256[])" [.address a, .uints [id]]) =
        .returned { s with token := u } (values [.bool true]) := by
  have hg := (reached_inv hr).toNoGhost
  have hm := (moved_iff (u' := Erc721.updated s.token a id) hg (.inr h0)).mp rfl
  refine ⟨_, hm, (C111_depositFor W D caller hr a [id] _ _ ?_).mpr ⟨_, _, ⟨s.world, _, s.world, .inl ⟨hu, rfl⟩, h0, ho, hm,
    .inl ⟨ha, rfl⟩, rfl, rfl⟩, rfl, rfl⟩⟩
  rw [message_length]
  simp [values, heads, tails, arg, Spec.Calls.array, Spec.Revert.word]
