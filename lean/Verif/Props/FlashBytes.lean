import Verif.Spec.FlashBytes
import Verif.Proofs.Outside
import Verif.Props.FlashMint
import Verif.Props.Calls
import Verif.Props.VaultSystem
import Verif.Proofs.Erc20Foreign
/-! # C110: `examples/erc20-flash-mint` on bytes, over any programs, which may call it again at any depth -/
namespace Verif.Props.FlashBytes
open Verif Verif.Abi Verif.Reenter Verif.Outside Verif.Outside.Flash
open Verif.Spec.Keccak (keccak256)
open Verif.Spec.Contracts Verif.Spec.FlashBytes
open Verif.Spec.Calls (call)
open Verif.Spec.Revert (addr)
open Verif.Proofs.Contracts Verif.Proofs.Outside
open Verif.FlashMint (Action)

variable {τ : Type}

/-- The operations. -/
inductive Op where
  | flashLoan (receiver token : Address) (value : U256) (data : Bytes)
  | mint (account : Address) (value : U256)
  | transfer (dst : Address) (value : U256)
  | transferFrom (src dst : Address) (value : U256)
  | approve (spender : Address) (value : U256)

/-- Signature and arguments of each operation. -/
def abi : Op → String × List Val
  | .flashLoan r a v data => ("flashLoan(address,address,uint256,bytes)", [.address r, .address a, .uint256 v, .bytes data])
  | .mint a v => ("mint(address,uint256)", [.address a, .uint256 v])
  | .transfer dst v => ("transfer(address,uint256)", [.address dst, .uint256 v])
  | .transferFrom src dst v => ("transferFrom(address,address,uint256)", [.address src, .address dst, .uint256 v])
  | .approve p v => ("approve(address,uint256)", [.address p, .uint256 v])

/-- What each operation returns. -/
def results : Op → List Val
  | .mint .. => []
  | _ => [.bool true]

/-- The operation, for the sender; calls of the contract in it can be nested `n` deep. -/
def act (W : Others τ) (D : Decoder) (n : Nat) (caller : Address) (s : State × τ) : Op → Except FlashMint.Err (State × τ)
  | .flashLoan r a v data => flashLoan W keccak256 D (play (run W keccak256 D n)) s caller r a v data
  | .mint a v => inner .erc20 (put s) (Erc20.mint s.1.token a v)
  | .transfer dst v => inner .erc20 (put s) (Erc20.transfer s.1.token caller dst v)
  | .transferFrom src dst v => inner .erc20 (put s) (Erc20.transferFrom s.1.token caller src dst v)
  | .approve p v => inner .erc20 (put s) (Erc20.approve s.1.token caller p v)

/-- With its reply. -/
def exec (W : Others τ) (D : Decoder) (n : Nat) (caller : Address) (s : State × τ) (op : Op) :
    Except FlashMint.Err ((State × τ) × List Val) := giving (act W D n caller s op) (results op)

/-- The contract on bytes, when calls can be nested `n` deep. -/
abbrev lender (W : Others τ) (D : Decoder) (n : Nat) (caller : Address) (s : State × τ) (value : U256) (input : Bytes) :
    Outcome (State × τ) := Flash.run W keccak256 D n caller s value input

/-- The revert data of an error. -/
def revert (e : FlashMint.Err) : Bytes := ((Revert.flashMint e).data keccak256).getD []

abbrev spec : Spec.Router.Entry :=
  ⟨Router.erc20FlashMintExample, Spec.Router.erc20FlashMintExample, [Spec.Router.erc20, Spec.Router.erc3156]⟩

theorem mem : spec ∈ Spec.Router.contracts := by simp [Spec.Router.contracts]

set_option maxRecDepth 100000 in
/-- **C110** For every chain, operation, sender and state: the message of the call, as the ABI defines it, has exactly the effect and
the reply of the operation, or reverts with exactly the bytes of its error. -/
theorem C110_call (W : Others τ) (D : Decoder) (n : Nat) (caller : Address) (s : State × τ) (op : Op)
    (hl : (message (abi op).1 (abi op).2).length < 2 ^ 256) :
    lender W D (n + 1) caller s 0#256 (message (abi op).1 (abi op).2) = reply revert (exec W D n caller s op) := by
  cases op <;>
    exact run_message mem D _ s _ _ rfl rfl (by
      first
      | exact outcome_finish _ _
      | exact outcome_inner (rep := Revert.erc20) (rep' := Revert.flashMint) (err := .erc20) (fun _ => rfl) _ _)
      (by simp [abi, Spec.Router.erc20FlashMintExample]) hl

set_option maxRecDepth 100000 in
theorem ops (W : Others τ) (D : Decoder) (n : Nat) :
    Ops spec (handler W keccak256 D (play (run W keccak256 D n))) abi (exec W D n) where
  inv env s sg t n args s' r hm hh := by
    obtain ⟨x, hmem, rfl, rfl, h2⟩ := dispatch_ok hh
    clear hh
    simp only [Contracts.erc20Views, erc20Calls, List.cons_append, List.nil_append, List.mem_cons, List.not_mem_nil,
      or_false] at hmem
    rcases hmem with rfl | rfl | rfl | rfl | rfl | rfl | rfl | rfl | rfl | rfl
    all_goals dsimp only at h2 hm
    all_goals split at h2
    all_goals try (first | (cases h2; done) | (cases h2; exact .inl rfl) | exact .inl (view_ok h2))
    all_goals simp [Spec.Router.erc20FlashMintExample] at hm
    all_goals subst hm
    · exact .inr ⟨.flashLoan _ _ _ _, rfl, finish_ok h2⟩
    · exact .inr ⟨.mint _ _, rfl, inner_ok h2⟩
    · exact .inr ⟨.transfer _ _, rfl, inner_ok h2⟩
    · exact .inr ⟨.approve _ _, rfl, inner_ok h2⟩
    · exact .inr ⟨.transferFrom _ _ _, rfl, inner_ok h2⟩

/-- **C110** Whatever is sent: the call is refused, or it is answered and changes nothing, or it is a call of one of the
operations (its selector, its arguments, no value) that succeeds, with exactly its effect and its reply. -/
theorem C110_no_other_effect (W : Others τ) (D : Decoder) (n : Nat) (caller : Address) (s : State × τ) (value : U256) (input : Bytes) :
    (∃ data, lender W D (n + 1) caller s value input = .reverted data) ∨
    (∃ data, lender W D (n + 1) caller s value input = .returned s data) ∨
    ∃ op s' r, exec W D n caller s op = .ok (s', r) ∧ lender W D (n + 1) caller s value input = .returned s' (values r) ∧
      value = 0#256 ∧ Says D input (abi op).1 (abi op).2 :=
  no_other_effect mem (ops W D n) D caller s value input

/-! ### Nested calls are actions of the model of C15 and C16 -/

/-- The constants; that a borrower has code is checked before. -/
def env' (k : State) : FlashMint.Env :=
  { self_ := k.self_, hasCode := fun _ => true, magic := magic keccak256, fee := k.fee, feeReceiver := k.feeReceiver }

mutual
/-- Every token call in an action, at any depth, satisfies `q`. -/
def Calls (q : Address → Erc20.Call → Prop) : Action → Prop
  | .call c k => q c k
  | .loan _ _ _ cb _ => CallsAll q cb
/-- The same for a list. -/
def CallsAll (q : Address → Erc20.Call → Prop) : List Action → Prop
  | [] => True
  | a :: l => Calls q a ∧ CallsAll q l
end

theorem execAll_append (E : FlashMint.Env) (l m : List Action) (u : Erc20.State) :
    FlashMint.execAll E u (l ++ m) = FlashMint.execAll E (FlashMint.execAll E u l) m := by
  induction l generalizing u with
  | nil => simp only [List.nil_append, FlashMint.execAll]
  | cons a l ih => simp only [List.cons_append, FlashMint.execAll, ih]

theorem callsAll_append {q : Address → Erc20.Call → Prop} {l m : List Action} (h1 : CallsAll q l) (h2 : CallsAll q m) :
    CallsAll q (l ++ m) := by
  induction l with
  | nil => exact h2
  | cons a l ih =>
    simp only [CallsAll] at h1
    simp only [List.cons_append, CallsAll]
    exact ⟨h1.1, ih h1.2⟩

/-- From `k` to `k'` the token went through actions whose calls satisfy `q`. -/
def Via (q : Address → Erc20.Call → Prop) (k k' : State) : Prop :=
  ∃ l, CallsAll q l ∧ k' = { k with token := FlashMint.execAll (env' k) k.token l }

theorem Via.refl (q : Address → Erc20.Call → Prop) (k : State) : Via q k k :=
  ⟨[], trivial, by simp only [FlashMint.execAll]⟩

theorem Via.trans {q : Address → Erc20.Call → Prop} {k k' k'' : State} (h1 : Via q k k') (h2 : Via q k' k'') : Via q k k'' := by
  obtain ⟨l, hl, rfl⟩ := h1
  obtain ⟨l', hl', rfl⟩ := h2
  refine ⟨l ++ l', callsAll_append hl hl', ?_⟩
  rw [execAll_append]
  rfl

theorem Via.one {q : Address → Erc20.Call → Prop} {k : State} {u : Erc20.State} {a : Action} (h : Calls q a)
    (he : FlashMint.exec (env' k) k.token a = .ok u) : Via q k { k with token := u } := by
  refine ⟨[a], ⟨h, trivial⟩, ?_⟩
  simp only [FlashMint.execAll, he]

/-- Programs, if what they send has the effect of actions. -/
theorem play_via {p : Address → U256 → Bytes → Prop} {q : Address → Erc20.Call → Prop}
    {r : Address → State × τ → U256 → Bytes → Outcome (State × τ)}
    (hr : ∀ c k t v i k' t' d, p c v i → r c (k, t) v i = .returned (k', t') d → Via q k k') (P : Program τ) (hP : Sends p P) :
    ∀ k k' t' d, play r k P = .returned (k', t') d → Via q k k' := by
  induction P with
  | stop t data => intro k k' t' d h; cases h; exact Via.refl q k
  | fail data => intro k k' t' d h; cases h
  | call t c v i next ih =>
    intro k k' t' d h
    unfold play at h
    split at h
    · rename_i k1 t1 d1 h1
      exact (hr _ _ _ _ _ _ _ _ hP.1 h1).trans (ih _ _ _ (hP.2 _ _ _) _ _ _ _ h)
    · exact ih _ _ _ (hP.2 _ _ _) _ _ _ _ h
  | attempt t body next ihb ih =>
    intro k k' t' d h
    unfold play at h
    split at h
    · rename_i k1 t1 d1 h1
      exact (ihb hP.1 _ _ _ _ h1).trans (ih _ _ _ (hP.2 _ _ _) _ _ _ _ h)
    · exact ih _ _ _ (hP.2 _ _ _) _ _ _ _ h

/-- The token calls. -/
def Op.calls (q : Address → Erc20.Call → Prop) (c : Address) : Op → Prop
  | .flashLoan .. => True
  | .mint a v => q c (.mint a v)
  | .transfer dst v => q c (.transfer dst v)
  | .transferFrom src dst v => q c (.transferFrom src dst v)
  | .approve p v => q c (.approve p v)

/-- The parts of a flash loan that succeeds. -/
theorem flashLoan_ok {W : Others τ} {D : Decoder} {f : State → Program τ → Outcome (State × τ)} {s s' : State × τ}
    {c r a : Address} {v : U256} {data : Bytes} :
    flashLoan W keccak256 D f s c r a v data = .ok s' ↔ a = s.1.self_ ∧ W.hasCode s.2 r = true ∧
      s.1.token.totalSupply.toNat + v.toNat < 2 ^ 256 ∧ ∃ u1 k t d u, Erc20.mint s.1.token r v = .ok u1 ∧
      f { s.1 with token := u1 } (W.react s.2 s.1.self_ r ((Verif.Calls.Message.onFlashLoan c a v s.1.fee data).bytes keccak256)) =
        .returned (k, t) d ∧
      FlashMint.finish (env' k) k.token r v s.1.fee (Verif.Calls.flashReply D (.returned () d)) = .ok u ∧
      s' = ({ k with token := u }, t) := by
  unfold flashLoan
  cases hb : FlashMint.begin_ (env W keccak256 s.1 s.2) s.1.token r a v with
  | error e =>
    constructor
    · intro h; cases h
    · rintro ⟨h1, h2, h3, u1, k, t, d, u, h4, -⟩
      have := (Props.FlashMint.begin_ok (E := env W keccak256 s.1 s.2) (f := s.1.fee)).mpr ⟨h1, rfl, h2, h3, h4⟩
      rw [hb] at this; cases this
  | ok x =>
    obtain ⟨fee, u1⟩ := x
    obtain ⟨h1, h2, h3, h4, h5⟩ := Props.FlashMint.begin_ok.mp hb
    have h2 : fee = s.1.fee := h2
    subst h2
    simp only [except_bind_ok]
    constructor
    · intro h
      refine ⟨h1, h3, h4, u1, ?_⟩
      split at h
      · rename_i k t d hi
        obtain ⟨u, hu, h⟩ := bind_eq_ok.mp h
        cases h
        exact ⟨k, t, d, u, h5, hi, hu, rfl⟩
      · cases h
    · rintro ⟨_, _, _, u1', k, t, d, u, h5', hi, hu, rfl⟩
      rw [h5] at h5'
      cases h5'
      rw [hi]
      show (FlashMint.finish (env' k) k.token r v s.1.fee (Verif.Calls.flashReply D (.returned () d)) >>= _) = _
      rw [hu]
      rfl

theorem act_via {W : Others τ} {D : Decoder} {n : Nat} {p : Address → U256 → Bytes → Prop} {q : Address → Erc20.Call → Prop}
    (hW : ∀ t a b c, Sends p (W.react t a b c))
    (hr : ∀ c k t v i k' t' d, p c v i → run W keccak256 D n c (k, t) v i = .returned (k', t') d → Via q k k')
    {c : Address} {s s' : State × τ} {op : Op} (hq : op.calls q c) (h : act W D n c s op = .ok s') : Via q s.1 s'.1 := by
  have tok : ∀ {x : Except Erc20.Err Erc20.State} {k : Erc20.Call}, x = Erc20.exec s.1.token (c, k) → q c k →
      inner FlashMint.Err.erc20 (put s) x = .ok s' → Via q s.1 s'.1 := by
    rintro x k rfl hk h
    obtain ⟨u, hu, rfl⟩ := inner_eq_ok.mp h
    refine Via.one (a := .call c k) hk ?_
    simp only [FlashMint.exec, hu, FlashMint.lift]
  cases op with
  | mint a v => exact tok (k := .mint a v) rfl hq h
  | transfer dst v => exact tok (k := .transfer dst v) rfl hq h
  | transferFrom src dst v => exact tok (k := .transferFrom src dst v) rfl hq h
  | approve o v => exact tok (k := .approve o v) rfl hq h
  | flashLoan r a v data =>
    obtain ⟨h1, h2, h3, u1, k, t, d, u, h4, h5, h6, rfl⟩ := flashLoan_ok.mp h
    obtain ⟨l, hl, rfl⟩ := play_via hr _ (hW _ _ _ _) _ _ _ _ h5
    refine Via.one (k := s.1) (a := .loan r a v l (Verif.Calls.flashReply D (.returned () d))) hl ?_
    have hb := (Props.FlashMint.begin_ok (E := env' s.1) (f := s.1.fee)).mpr ⟨h1, rfl, rfl, h3, h4⟩
    simp only [FlashMint.exec, hb, except_bind_ok]
    exact h6

/-- Whatever happens in a call of the contract, at any depth, is actions. -/
theorem run_via {W : Others τ} {D : Decoder} {p : Address → U256 → Bytes → Prop} {q : Address → Erc20.Call → Prop}
    (hW : ∀ t a b c, Sends p (W.react t a b c))
    (hq : ∀ c i op, p c 0#256 i → Says D i (abi op).1 (abi op).2 → op.calls q c) (n : Nat) :
    ∀ c k t v i k' t' d, p c v i → run W keccak256 D n c (k, t) v i = .returned (k', t') d → Via q k k' := by
  induction n with
  | zero => intro c k t v i k' t' d _ h; cases h
  | succ n ih =>
    intro c k t v i k' t' d hp h
    rcases C110_no_other_effect W D n c (k, t) v i with ⟨e, h1⟩ | ⟨e, h1⟩ | ⟨op, s', r, he, h1, hv, hs⟩
    · have h1 : run W keccak256 D (n + 1) c (k, t) v i = _ := h1
      rw [h1] at h; cases h
    · have h1 : run W keccak256 D (n + 1) c (k, t) v i = _ := h1
      rw [h1] at h; cases h; exact Via.refl q k
    · have h1 : run W keccak256 D (n + 1) c (k, t) v i = _ := h1
      rw [h1] at h
      cases h
      subst hv
      exact act_via hW ih (hq _ _ _ hp hs) (giving_eq_ok.mp he).1

/-! ### Histories -/

theorem sends_all {P : Program τ} {p : Address → U256 → Bytes → Prop} (h : ∀ c v i, p c v i) : Sends p P := by
  induction P with
  | stop => trivial
  | fail => trivial
  | call t c v i next ih => exact ⟨h _ _ _, fun _ _ _ => ih _ _ _⟩
  | attempt t body next ihb ih => exact ⟨ihb, fun _ _ _ => ih _ _ _⟩

theorem step_via {W : Others τ} {D : Decoder} {p : Address → U256 → Bytes → Prop} {q : Address → Erc20.Call → Prop}
    (hW : ∀ t a b c, Sends p (W.react t a b c))
    (hq : ∀ c i op, p c 0#256 i → Says D i (abi op).1 (abi op).2 → op.calls q c) (s : State × τ) (x : Tx τ)
    (hx : p x.sender x.value x.input) : Via q s.1 (step W D s x).1 := by
  unfold step
  cases h : run W keccak256 D x.depth x.sender (s.1, x.meanwhile s.2) x.value x.input with
  | returned s' d => exact run_via hW hq _ _ _ _ _ _ _ _ _ hx h
  | reverted d => exact Via.refl q s.1

theorem after_via {W : Others τ} {D : Decoder} {p : Address → U256 → Bytes → Prop} {q : Address → Erc20.Call → Prop}
    (hW : ∀ t a b c, Sends p (W.react t a b c))
    (hq : ∀ c i op, p c 0#256 i → Says D i (abi op).1 (abi op).2 → op.calls q c) (l : List (Tx τ))
    (hl : ∀ x ∈ l, p x.sender x.value x.input) (s : State × τ) : Via q s.1 (after W D s l).1 := by
  induction l generalizing s with
  | nil => exact Via.refl q s.1
  | cons x l ih =>
    exact (step_via hW hq s x (hl x (by simp))).trans (ih (fun y hy => hl y (by simp [hy])) _)

/-- Any token call. -/
abbrev Any : Address → Erc20.Call → Prop := fun _ _ => True

theorem any_op (c : Address) (op : Op) : op.calls Any c := by cases op <;> trivial

theorem Via.sum {q : Address → Erc20.Call → Prop} {k k' : State} (h : Via q k k') (hs : Erc20.SumOk k.token) :
    Erc20.SumOk k'.token := by
  obtain ⟨l, -, rfl⟩ := h
  exact Props.FlashMint.sumOk_execAll _ _ _ hs

theorem Via.fixed {q : Address → Erc20.Call → Prop} {k k' : State} (h : Via q k k') :
    k'.self_ = k.self_ ∧ k'.fee = k.fee ∧ k'.feeReceiver = k.feeReceiver := by
  obtain ⟨l, -, rfl⟩ := h
  exact ⟨rfl, rfl, rfl⟩

theorem after_any (W : Others τ) (D : Decoder) (l : List (Tx τ)) (s : State × τ) : Via Any s.1 (after W D s l).1 :=
  after_via (p := fun _ _ _ => True) (fun _ _ _ _ => sends_all fun _ _ _ => trivial) (fun c _ op _ _ => any_op c op) l
    (fun _ _ => trivial) s

theorem play_any (W : Others τ) (D : Decoder) (n : Nat) (P : Program τ) {k k' : State} {t' : τ} {d : Bytes}
    (h : play (run W keccak256 D n) k P = .returned (k', t') d) : Via Any k k' :=
  play_via (p := fun _ _ _ => True)
    (run_via (fun _ _ _ _ => sends_all fun _ _ _ => trivial) (fun c _ op _ _ => any_op c op) n) P
    (sends_all fun _ _ _ => trivial) _ _ _ _ h

theorem reached_sum {W : Others τ} {D : Decoder} {s : State × τ} (h : Reached W D s) : Erc20.SumOk s.1.token := by
  obtain ⟨a, f, r, t, l, rfl⟩ := h
  exact (after_any W D l (newToken a f r, t)).sum Erc20.sumOk_init

/-- **C110** Address, fee and receiver of fees never change, whatever is called at any depth. -/
theorem C110_fixed (W : Others τ) (D : Decoder) (l : List (Tx τ)) (s : State × τ) :
    let s' := after W D s l
    s'.1.self_ = s.1.self_ ∧ s'.1.fee = s.1.fee ∧ s'.1.feeReceiver = s.1.feeReceiver := (after_any W D l s).fixed

set_option maxRecDepth 100000 in
/-- **C110** What the questions answer, for every sender and state. -/
theorem C110_views (W : Others τ) (D : Decoder) (n : Nat) (caller : Address) (s : State × τ) (a b : Address) (v : U256) :
    lender W D (n + 1) caller s 0#256 (message "maxFlashLoan(address)" [.address a]) = .returned s (values [.uint256
      (if a = s.1.self_ then BitVec.ofNat 256 (2 ^ 256 - 1 - s.1.token.totalSupply.toNat) else 0#256)]) ∧
    lender W D (n + 1) caller s 0#256 (message "flashFee(address,uint256)" [.address a, .uint256 v]) =
      (if a = s.1.self_ then .returned s (values [.uint256 s.1.fee])
      else .reverted (call "ERC3156UnsupportedToken(address)" [addr a])) ∧
    lender W D (n + 1) caller s 0#256 (message "totalSupply()" []) = .returned s (values [.uint256 s.1.token.totalSupply]) ∧
    lender W D (n + 1) caller s 0#256 (message "balanceOf(address)" [.address a]) =
      .returned s (values [.uint256 (s.1.token.balances a)]) ∧
    lender W D (n + 1) caller s 0#256 (message "allowance(address,address)" [.address a, .address b]) =
      .returned s (values [.uint256 (s.1.token.allowances a b)]) := by
  refine ⟨?_, ?_, ?_, ?_, ?_⟩ <;>
    refine run_message mem D _ s _ _ rfl rfl ?_ (by simp [Spec.Router.erc20FlashMintExample]) (words_lt _ _ (by simp [arg]) (by simp))
  · show outcome (.ok (s, [.uint256 (FlashMint.maxFlashLoan _ _ _)])) = _
    by_cases h : a = s.1.self_
    · rw [if_pos h]
      subst h
      have := Props.FlashMint.maxLoan_toNat (Flash.env W keccak256 s.1 s.2) s.1.token
      rw [show FlashMint.maxFlashLoan (Flash.env W keccak256 s.1 s.2) s.1.token s.1.self_ =
        BitVec.ofNat 256 (2 ^ 256 - 1 - s.1.token.totalSupply.toNat) from by
          rw [show 2 ^ 256 - 1 - s.1.token.totalSupply.toNat = _ from this.symm, BitVec.ofNat_toNat, BitVec.setWidth_eq]; rfl]
      exact outcome_ok _ _
    · rw [if_neg h]
      unfold FlashMint.maxFlashLoan
      rw [if_neg (show ¬ a = (Flash.env W keccak256 s.1 s.2).self_ from h)]
      exact outcome_ok _ _
  · by_cases h : a = s.1.self_
    · rw [if_pos h]
      show outcome (Contracts.view _ _ _ (Contracts.one _ (FlashMint.flashFee _ _ _))) = _
      unfold FlashMint.flashFee
      rw [if_pos (show a = (Flash.env W keccak256 s.1 s.2).self_ from h)]
      exact outcome_ok _ _
    · rw [if_neg h]
      show outcome (Contracts.view _ _ _ (Contracts.one _ (FlashMint.flashFee _ _ _))) = _
      unfold FlashMint.flashFee
      rw [if_neg (show ¬ a = (Flash.env W keccak256 s.1 s.2).self_ from h)]
      exact view_error _ _ "ERC3156UnsupportedToken" [.address a] _ rfl (by simp [Interfaces.signature, Revert.Val.type]; decide) rfl
  all_goals exact outcome_ok _ _

/-- **C110** After any history, with calls nested at will, the answers to `balanceOf` add up to the answer to `totalSupply`. -/
theorem C110_supply (W : Others τ) (D : Decoder) {s : State × τ} (hr : Reached W D s) (asker : Address) :
    ∃ (total : U256) (bal : Address → U256),
      answer (lender W D 1) asker s "totalSupply()" [] = some (values [.uint256 total]) ∧
      (∀ a, answer (lender W D 1) asker s "balanceOf(address)" [.address a] = some (values [.uint256 (bal a)])) ∧
      ∑ a, (bal a).toNat = total.toNat := by
  refine ⟨s.1.token.totalSupply, s.1.token.balances, ?_, fun a => ?_, reached_sum hr⟩
  · unfold answer
    rw [(C110_views W D 0 asker s 0#160 0#160 0#256).2.2.1]; rfl
  · unfold answer
    rw [(C110_views W D 0 asker s a 0#160 0#256).2.2.2.1]; rfl

/-! ### A loan -/

set_option maxRecDepth 100000 in
/-- **C110** What a borrower must answer is the hash that the standard prescribes. -/
theorem C110_magic : magic keccak256 = yes := by
  unfold magic yes
  rw [Proofs.KeccakFast.keccak256_eq]
  decide +kernel

theorem flashReply_iff {D : Decoder} {d : Bytes} {x : B256} :
    Verif.Calls.flashReply D (.returned () d) = some x ↔ D.read [.bytes32] d = some [.bytes32 x] := by
  simp only [Verif.Calls.flashReply]
  constructor
  · intro h
    split at h
    · rename_i y hy
      cases h
      exact hy
    · cases h
  · intro h
    rw [h]

/-- The log of a repayment. -/
theorem finish_log {E : FlashMint.Env} {u u' : Erc20.State} {r : Address} {v : U256} {ans : Option B256}
    (hs : Erc20.SumOk u) (h : FlashMint.finish E u r v E.fee ans = .ok u') :
    u'.log = u.log ++ (if E.fee.toNat = 0 ∨ E.feeReceiver = ZERO then [.transfer r ZERO (v + E.fee)]
      else [.transfer r ZERO v, .transfer r E.feeReceiver E.fee]) := by
  obtain ⟨rfl, -⟩ := Props.FlashMint.finish_effect hs h
  unfold FlashMint.finish at h
  simp only [ne_eq, not_true_eq_false, if_false, bind_eq_ok, Props.FlashMint.orPanic_eq_ok,
    Props.FlashMint.lift_ok] at h
  obtain ⟨al, hal, t1, h1, h2⟩ := h
  obtain ⟨hfit, halv⟩ := checkedAdd_eq_some.mp hal
  have hal' : al = v + E.fee := BitVec.eq_of_toNat_eq (by rw [halv, toNat_add_of_lt hfit])
  subst hal'
  obtain ⟨hb, hsup, hlog⟩ := Erc20.spend_frame h1
  have hs1 : Erc20.SumOk t1 := hs.of_frame hb hsup
  have h0 : E.fee.toNat = 0 ↔ E.fee = 0#256 := ⟨fun e => BitVec.eq_of_toNat_eq e, fun e => by rw [e]; rfl⟩
  simp only [h0]
  by_cases hf : E.fee = 0#256 ∨ E.feeReceiver = ZERO
  · rw [if_pos hf] at h2 ⊢
    obtain ⟨_, hu⟩ := Erc20.burnInternal_eq_ok.mp (Props.FlashMint.lift_ok.mp h2)
    rw [(Erc20.update_effect hs1 hu).log, hlog]
  · rw [if_neg hf] at h2 ⊢
    simp only [bind_eq_ok, Props.FlashMint.lift_ok] at h2
    obtain ⟨t2, h2, h3⟩ := h2
    obtain ⟨_, hu⟩ := Erc20.burnInternal_eq_ok.mp h2
    have e := Erc20.update_effect hs1 hu
    obtain ⟨_, _, hu'⟩ := Erc20.transferInternal_eq_ok.mp h3
    rw [(Erc20.update_effect e.sum hu').log, e.log, hlog, List.append_assoc]
    rfl

theorem max_iff (x : U256) : x = maxU256 ↔ x.toNat = 2 ^ 256 - 1 :=
  ⟨fun h => by rw [h, maxU256_toNat], fun h => BitVec.eq_of_toNat_eq (by rw [h, maxU256_toNat])⟩

theorem finish_repaid {k : State} {u u' : Erc20.State} {r : Address} {v : U256} {ans : Option B256}
    (hs : Erc20.SumOk u) (h : FlashMint.finish (env' k) u r v k.fee ans = .ok u') :
    ans = some (magic keccak256) ∧ Repaid k r v u u' := by
  obtain ⟨h1, e⟩ := Props.FlashMint.finish_effect (E := env' k) hs h
  have hfit : v.toNat + k.fee.toNat < 2 ^ 256 := e.fits
  have hcov : v.toNat + k.fee.toNat ≤ (u.allowances r k.self_).toNat := by
    rcases e.covered with hm | hm
    · have := (max_iff _).mp hm
      show _ ≤ (Erc20.allowance u r (env' k).self_).toNat
      omega
    · exact hm
  refine ⟨h1, e.funds, hcov, e.bal, e.supply, fun o p => ?_, finish_log (E := env' k) hs h⟩
  have ha : (u'.allowances o p).toNat = if o = r ∧ p = k.self_ ∧ u.allowances o p ≠ maxU256
    then (u.allowances o p).toNat - (v.toNat + k.fee.toNat) else (u.allowances o p).toNat := e.allowance o p
  simp only [ne_eq, max_iff] at ha
  rw [ha]
  by_cases hc : o = r ∧ p = k.self_ ∧ ¬ (u.allowances o p).toNat = 2 ^ 256 - 1
  · rw [if_pos hc, if_pos hc]
    obtain ⟨rfl, rfl, _⟩ := hc
    omega
  · rw [if_neg hc, if_neg hc]; rfl

theorem Repaid.unique {k : State} {r : Address} {v : U256} {u x y : Erc20.State} (h : Repaid k r v u x) (h' : Repaid k r v u y) :
    x = y := by
  obtain ⟨xb, xa, xs, xl⟩ := x
  obtain ⟨yb, ya, ys, yl⟩ := y
  have e1 : xb = yb := funext fun a => BitVec.eq_of_toNat_eq (by
    have := h.balances a; have := h'.balances a; dsimp only at *; omega)
  have e2 : xa = ya := funext fun o => funext fun p => BitVec.eq_of_toNat_eq (by
    have := h.allowances o p; have := h'.allowances o p; dsimp only at *; omega)
  have e3 : xs = ys := BitVec.eq_of_toNat_eq (by
    have := h.supply; have := h'.supply; dsimp only at *; omega)
  have e4 : xl = yl := h.log.trans h'.log.symm
  rw [e1, e2, e3, e4]

theorem finish_exists {k : State} {u : Erc20.State} {r : Address} {v : U256}
    (hs : Erc20.SumOk u) (hr : r ≠ ZERO) (hself : k.self_ ≠ ZERO) (ha : v.toNat + k.fee.toNat ≤ (u.allowances r k.self_).toNat)
    (hb : v.toNat + k.fee.toNat ≤ (u.balances r).toNat) :
    ∃ x, FlashMint.finish (env' k) u r v k.fee (some (magic keccak256)) = .ok x := by
  have hfit : v.toNat + k.fee.toNat < 2 ^ 256 := lt_of_le_of_lt ha (u.allowances r k.self_).isLt
  have hal : checkedAdd v k.fee = some (v + k.fee) := by unfold checkedAdd; rw [if_pos hfit]
  have halv : (v + k.fee).toNat = v.toNat + k.fee.toNat := toNat_add_of_lt hfit
  obtain ⟨t1, h1⟩ : ∃ t1, Erc20.spendAllowance u r k.self_ (v + k.fee) = .ok t1 := by
    by_cases hmx : u.allowances r k.self_ = maxU256
    · exact ⟨_, Erc20.spend_eq_ok.mpr (Or.inl ⟨hmx, rfl⟩)⟩
    · exact ⟨_, Erc20.spend_eq_ok.mpr (Or.inr ⟨hmx, by rw [halv]; exact ha, hr, hself, rfl⟩)⟩
  obtain ⟨hbf, hsf, _⟩ := Erc20.spend_frame h1
  have hs1 : Erc20.SumOk t1 := hs.of_frame hbf hsf
  have hb' : v.toNat + k.fee.toNat ≤ (t1.balances r).toNat := by rw [hbf]; exact hb
  have h1' : Erc20.spendAllowance u r (env' k).self_ (v + k.fee) = .ok t1 := h1
  simp only [FlashMint.finish, show (env' k).magic = magic keccak256 from rfl, ne_eq, not_true_eq_false, if_false,
    hal, orPanic_some, except_bind_ok, h1', FlashMint.lift]
  by_cases hf : k.fee = 0#256 ∨ k.feeReceiver = ZERO
  · rw [if_pos (show k.fee = 0#256 ∨ (env' k).feeReceiver = ZERO from hf)]
    obtain ⟨t2, h2⟩ := (Erc20.update_ok_iff (s := t1) (src := r) (dst := ZERO) (v := v + k.fee)).mpr
      ⟨fun _ => by rw [halv]; exact hb', fun e => absurd e hr⟩
    exact ⟨t2, by rw [Erc20.burnInternal_eq_ok.mpr ⟨hr, h2⟩]⟩
  · rw [if_neg (show ¬ (k.fee = 0#256 ∨ (env' k).feeReceiver = ZERO) from hf)]
    obtain ⟨t2, h2⟩ := (Erc20.update_ok_iff (s := t1) (src := r) (dst := ZERO) (v := v)).mpr
      ⟨fun _ => by omega, fun e => absurd e hr⟩
    have e2 := Erc20.update_effect hs1 h2
    have k' := e2.bal r
    rw [if_pos ⟨rfl, hr⟩, if_neg (fun e => e.2 rfl)] at k'
    obtain ⟨t3, h3⟩ := (Erc20.update_ok_iff (s := t2) (src := r) (dst := k.feeReceiver)
      (v := k.fee)).mpr ⟨fun _ => by omega, fun e => absurd e hr⟩
    refine ⟨t3, ?_⟩
    rw [Erc20.burnInternal_eq_ok.mpr ⟨hr, h2⟩]
    simp only [except_bind_ok]
    rw [show (env' k).feeReceiver = k.feeReceiver from rfl, Erc20.transferInternal_eq_ok.mpr ⟨hr, fun e => hf (Or.inr e), h3⟩]

theorem finish_iff {k : State} {u u' : Erc20.State} {r : Address} {v : U256} {ans : Option B256}
    (hs : Erc20.SumOk u) (hr : r ≠ ZERO) (hself : k.self_ ≠ ZERO) :
    FlashMint.finish (env' k) u r v k.fee ans = .ok u' ↔ ans = some (magic keccak256) ∧ Repaid k r v u u' := by
  refine ⟨finish_repaid hs, ?_⟩
  rintro ⟨rfl, e⟩
  obtain ⟨x, hx⟩ := finish_exists hs hr hself e.allows e.has
  rw [hx, Repaid.unique (finish_repaid hs hx).2 e]

theorem loan_iff {W : Others τ} {D : Decoder} {n : Nat} {caller : Address} {s s' : State × τ} {r a : Address} {v : U256}
    {data out : Bytes} (hl : (message "flashLoan(address,address,uint256,bytes)"
      [.address r, .address a, .uint256 v, .bytes data]).length < 2 ^ 256) :
    lender W D (n + 1) caller s 0#256
      (message "flashLoan(address,address,uint256,bytes)" [.address r, .address a, .uint256 v, .bytes data]) = .returned s' out ↔
      flashLoan W keccak256 D (play (run W keccak256 D n)) s caller r a v data = .ok s' ∧ out = values [.bool true] := by
  have := C110_call W D n caller s (.flashLoan r a v data) hl
  rw [show lender W D (n + 1) caller s 0#256 (message "flashLoan(address,address,uint256,bytes)"
    [.address r, .address a, .uint256 v, .bytes data]) = _ from this, Vault.reply_iff]
  unfold exec
  constructor
  · rintro ⟨x, h, rfl⟩
    obtain ⟨h1, rfl⟩ := giving_eq_ok.mp h
    exact ⟨h1, rfl⟩
  · rintro ⟨h, rfl⟩
    exact ⟨_, giving_eq_ok.mpr ⟨h, rfl⟩, rfl⟩

/-- **C110** When a flash loan succeeds, and what it does, whoever the borrower is and whatever happens in the meantime: exactly if
the token is this contract, the borrower has code and is not the zero address, there is room for the loan, and after the loan was
created for the borrower they return from `onFlashLoan(sender, token, value, fee, data)` with the word that the standard prescribes,
with the loan and the fee in their account, and with an allowance for the token contract to take them.  It then does take them. -/
theorem C110_loan (W : Others τ) (D : Decoder) (n : Nat) (caller : Address) {s : State × τ} (hr : Reached W D s)
    (hself : s.1.self_ ≠ ZERO) (r a : Address) (v : U256) (data : Bytes)
    (hl : (message "flashLoan(address,address,uint256,bytes)"
      [.address r, .address a, .uint256 v, .bytes data]).length < 2 ^ 256) (s' : State × τ) (out : Bytes) :
    lender W D (n + 1) caller s 0#256
      (message "flashLoan(address,address,uint256,bytes)" [.address r, .address a, .uint256 v, .bytes data]) = .returned s' out ↔
      a = s.1.self_ ∧ W.hasCode s.2 r = true ∧ r ≠ ZERO ∧ s.1.token.totalSupply.toNat + v.toNat < 2 ^ 256 ∧
      ∃ lent k t d u, Spec.Outside.Created s.1.token lent r v ∧
        play (lender W D n) { s.1 with token := lent } (W.react s.2 s.1.self_ r
          (message "onFlashLoan(address,address,uint256,uint256,bytes)"
            [.address caller, .address a, .uint256 v, .uint256 s.1.fee, .bytes data])) = .returned (k, t) d ∧
        D.read [.bytes32] d = some [.bytes32 yes] ∧ Repaid s.1 r v k.token u ∧
        s' = ({ s.1 with token := u }, t) ∧ out = values [.bool true] := by
  rw [loan_iff hl, flashLoan_ok, bytes_message]
  have hs := reached_sum hr
  constructor
  · rintro ⟨⟨h1, h2, h3, u1, k, t, d, u, h4, h5, h6, h7⟩, h8⟩
    obtain ⟨m1, m2, m3⟩ := (Vault.minted_iff hs).mp h4
    have hv := play_any W D n _ h5
    obtain ⟨e1, e2, e3⟩ := hv.fixed
    have hk : k = { s.1 with token := k.token } := by
      obtain ⟨k1, k2, k3, k4⟩ := k
      dsimp only at e1 e2 e3
      rw [e1, e2, e3]
    have hs' : Erc20.SumOk k.token := hv.sum (Props.FlashMint.sumOk_exec (env' s.1) (.call r (.mint r v)) _ _ hs (by
      simp only [FlashMint.exec, Props.FlashMint.lift_ok]; exact h4))
    have h6 : FlashMint.finish (env' s.1) k.token r v s.1.fee (Verif.Calls.flashReply D (.returned () d)) = .ok u := by
      rw [hk] at h6; exact h6
    obtain ⟨f1, f2⟩ := finish_repaid hs' h6
    rw [C110_magic] at f1
    refine ⟨h1, h2, m1, m2, u1, k, t, d, u, m3, h5, flashReply_iff.mp f1, f2, ?_, h8⟩
    rw [h7]
    rw [hk]
  · rintro ⟨h1, h2, m1, m2, u1, k, t, d, u, m3, h5, f1, f2, h7, h8⟩
    have h4 := (Vault.minted_iff hs).mpr ⟨m1, m2, m3⟩
    have hv := play_any W D n _ h5
    obtain ⟨e1, e2, e3⟩ := hv.fixed
    have hk : k = { s.1 with token := k.token } := by
      obtain ⟨k1, k2, k3, k4⟩ := k
      dsimp only at e1 e2 e3
      rw [e1, e2, e3]
    have hs' : Erc20.SumOk k.token := hv.sum (Props.FlashMint.sumOk_exec (env' s.1) (.call r (.mint r v)) _ _ hs (by
      simp only [FlashMint.exec, Props.FlashMint.lift_ok]; exact h4))
    rw [← flashReply_iff, ← C110_magic] at f1
    have h6 := (finish_iff hs' m1 hself).mpr ⟨f1, f2⟩
    refine ⟨⟨h1, h2, m2, u1, k, t, d, u, h4, h5, ?_, ?_⟩, h8⟩
    · rw [hk]; exact h6
    · rw [h7, hk]

/-! ### Refused loans -/

theorem loan_error {W : Others τ} {D : Decoder} {n : Nat} {caller : Address} {s : State × τ} {r a : Address} {v : U256}
    {data : Bytes} {e : FlashMint.Err} (hl : (message "flashLoan(address,address,uint256,bytes)"
      [.address r, .address a, .uint256 v, .bytes data]).length < 2 ^ 256)
    (he : flashLoan W keccak256 D (play (run W keccak256 D n)) s caller r a v data = .error e) :
    lender W D (n + 1) caller s 0#256
      (message "flashLoan(address,address,uint256,bytes)" [.address r, .address a, .uint256 v, .bytes data]) =
        .reverted (revert e) := by
  have := C110_call W D n caller s (.flashLoan r a v data) hl
  rw [show lender W D (n + 1) caller s 0#256 (message "flashLoan(address,address,uint256,bytes)"
    [.address r, .address a, .uint256 v, .bytes data]) = _ from this]
  unfold exec
  rw [show act W D n caller s (.flashLoan r a v data) = .error e from he]
  rfl

theorem maxLoan_self (W : Others τ) (s : State × τ) : FlashMint.maxFlashLoan (Flash.env W keccak256 s.1 s.2) s.1.token s.1.self_ =
    BitVec.ofNat 256 (2 ^ 256 - 1 - s.1.token.totalSupply.toNat) := by
  have := Props.FlashMint.maxLoan_toNat (Flash.env W keccak256 s.1 s.2) s.1.token
  rw [show 2 ^ 256 - 1 - s.1.token.totalSupply.toNat = _ from this.symm, BitVec.ofNat_toNat, BitVec.setWidth_eq]; rfl

/-- **C110** Which loans are refused before the borrower is called, and with which bytes. -/
theorem C110_refused (W : Others τ) (D : Decoder) (n : Nat) (caller : Address) (s : State × τ) (r a : Address) (v : U256)
    (data : Bytes) (hl : (message "flashLoan(address,address,uint256,bytes)"
      [.address r, .address a, .uint256 v, .bytes data]).length < 2 ^ 256) :
    let loan := lender W D (n + 1) caller s 0#256
      (message "flashLoan(address,address,uint256,bytes)" [.address r, .address a, .uint256 v, .bytes data])
    (a ≠ s.1.self_ → loan = .reverted (if v.toNat = 0 then call "ERC3156UnsupportedToken(address)" [addr a]
      else call "ERC3156ExceededMaxLoan(uint256)" [0#256])) ∧
    (a = s.1.self_ → 2 ^ 256 ≤ s.1.token.totalSupply.toNat + v.toNat → loan = .reverted
      (call "ERC3156ExceededMaxLoan(uint256)" [BitVec.ofNat 256 (2 ^ 256 - 1 - s.1.token.totalSupply.toNat)])) ∧
    (a = s.1.self_ → s.1.token.totalSupply.toNat + v.toNat < 2 ^ 256 → W.hasCode s.2 r = false →
      loan = .reverted (call "ERC3156InvalidReceiver(address)" [addr r])) ∧
    (a = s.1.self_ → s.1.token.totalSupply.toNat + v.toNat < 2 ^ 256 → W.hasCode s.2 r = true → r = ZERO →
      loan = .reverted (call "ERC20InvalidReceiver(address)" [0#256])) := by
  intro loan
  have go : ∀ e, FlashMint.begin_ (Flash.env W keccak256 s.1 s.2) s.1.token r a v = .error e → loan = .reverted (revert e) := by
    intro e he
    refine loan_error hl ?_
    unfold flashLoan
    rw [he]
    rfl
  have hlt := s.1.token.totalSupply.isLt
  have room : s.1.token.totalSupply.toNat + v.toNat < 2 ^ 256 →
      ¬ BitVec.ofNat 256 (2 ^ 256 - 1 - s.1.token.totalSupply.toNat) < v := by
    intro h h'
    have := BitVec.lt_def.mp h'
    rw [BitVec.toNat_ofNat, Nat.mod_eq_of_lt (by omega)] at this
    omega
  refine ⟨fun ha => ?_, fun ha hv => ?_, fun ha hv hc => ?_, fun ha hv hc h0 => ?_⟩
  · have hm : FlashMint.maxFlashLoan (Flash.env W keccak256 s.1 s.2) s.1.token a = 0#256 :=
      if_neg (show ¬ a = (Flash.env W keccak256 s.1 s.2).self_ from ha)
    have hf : FlashMint.flashFee (Flash.env W keccak256 s.1 s.2) a v = .error (.unsupportedToken a) :=
      if_neg (show ¬ a = (Flash.env W keccak256 s.1 s.2).self_ from ha)
    by_cases hv : v.toNat = 0
    · rw [if_pos hv, go (.unsupportedToken a)]
      · exact congrArg _ (error_bytes "ERC3156UnsupportedToken" [.address a] _ rfl rfl)
      · have : ¬ 0#256 < v := by rw [BitVec.lt_def]; simp [hv]
        simp only [FlashMint.begin_, hm, hf, if_neg this]
        rfl
    · rw [if_neg hv, go (.exceededMaxLoan 0#256)]
      · exact congrArg _ (error_bytes "ERC3156ExceededMaxLoan" [.uint256 0#256] _ rfl rfl)
      · have : 0#256 < v := by rw [BitVec.lt_def]; simpa using Nat.pos_of_ne_zero hv
        simp only [FlashMint.begin_, hm, if_pos this]
        rfl
  all_goals subst ha
  · rw [go (.exceededMaxLoan (BitVec.ofNat 256 (2 ^ 256 - 1 - s.1.token.totalSupply.toNat)))]
    · exact congrArg _ (error_bytes "ERC3156ExceededMaxLoan" [.uint256 _] _ rfl rfl)
    · have : BitVec.ofNat 256 (2 ^ 256 - 1 - s.1.token.totalSupply.toNat) < v := by
        rw [BitVec.lt_def, BitVec.toNat_ofNat, Nat.mod_eq_of_lt (by omega)]
        omega
      simp only [FlashMint.begin_, maxLoan_self, if_pos this]
      rfl
  · have hf : FlashMint.flashFee (Flash.env W keccak256 s.1 s.2) s.1.self_ v = .ok s.1.fee := if_pos rfl
    rw [go (.invalidReceiver r)]
    · exact congrArg _ (error_bytes "ERC3156InvalidReceiver" [.address r] _ rfl rfl)
    · have hc : (Flash.env W keccak256 s.1 s.2).hasCode r = false := hc
      simp only [FlashMint.begin_, maxLoan_self, if_neg (room hv), hf, hc, if_true]
      rfl
  · have hf : FlashMint.flashFee (Flash.env W keccak256 s.1 s.2) s.1.self_ v = .ok s.1.fee := if_pos rfl
    rw [go (.erc20 (.invalidReceiver ZERO))]
    · exact congrArg _ (error_bytes "ERC20InvalidReceiver" [.address ZERO] _ rfl rfl)
    · have hc : (Flash.env W keccak256 s.1 s.2).hasCode r = true := hc
      have hm : Erc20.mint s.1.token r v = .error (.invalidReceiver ZERO) := if_pos h0
      simp only [FlashMint.begin_, maxLoan_self, if_neg (room hv), hf, hc, hm]
      rfl

/-- **C110** A borrower that reverts, or answers anything that is not read as the word of the standard, makes the loan revert with
`ERC3156InvalidReceiver`. -/
theorem C110_bad_answer (W : Others τ) (D : Decoder) (n : Nat) (caller : Address) {s : State × τ} (hr : Reached W D s)
    (r : Address) (v : U256) (data : Bytes) (hl : (message "flashLoan(address,address,uint256,bytes)"
      [.address r, .address s.1.self_, .uint256 v, .bytes data]).length < 2 ^ 256)
    (hc : W.hasCode s.2 r = true) (h0 : r ≠ ZERO) (hv : s.1.token.totalSupply.toNat + v.toNat < 2 ^ 256)
    (hbad : ∀ lent k t d, Spec.Outside.Created s.1.token lent r v →
      play (lender W D n) { s.1 with token := lent } (W.react s.2 s.1.self_ r
          (message "onFlashLoan(address,address,uint256,uint256,bytes)"
            [.address caller, .address s.1.self_, .uint256 v, .uint256 s.1.fee, .bytes data])) = .returned (k, t) d →
      D.read [.bytes32] d ≠ some [.bytes32 yes]) :
    lender W D (n + 1) caller s 0#256 (message "flashLoan(address,address,uint256,bytes)"
      [.address r, .address s.1.self_, .uint256 v, .bytes data]) =
        .reverted (call "ERC3156InvalidReceiver(address)" [addr r]) := by
  have hs := reached_sum hr
  obtain ⟨u1, hu⟩ := mint_iff.mpr ⟨h0, hv⟩
  have hcr := created_of_mint hs hu
  have hb := (Props.FlashMint.begin_ok (E := Flash.env W keccak256 s.1 s.2) (f := s.1.fee)).mpr ⟨rfl, rfl, hc, hv, hu⟩
  have key : flashLoan W keccak256 D (play (run W keccak256 D n)) s caller r s.1.self_ v data = .error (.invalidReceiver r) := by
    unfold flashLoan
    rw [show FlashMint.begin_ (Flash.env W keccak256 s.1 s.2) s.1.token r s.1.self_ v = _ from hb]
    simp only [except_bind_ok]
    rw [bytes_message]
    split
    · rename_i k t d hp
      have hne := hbad u1 k t d hcr hp
      rw [ne_eq, ← flashReply_iff, ← C110_magic] at hne
      generalize Verif.Calls.flashReply D (.returned () d) = x at hne
      cases x with
      | none => rfl
      | some y =>
        have : y ≠ (Flash.env W keccak256 k t).magic := fun e => hne (congrArg some e)
        simp only [FlashMint.finish, ne_eq, this, not_false_eq_true, if_true, except_throw, except_bind_error]
    · rfl
  rw [loan_error hl key]
  exact congrArg _ (error_bytes "ERC3156InvalidReceiver" [.address r] _ rfl rfl)

/-! ### Supply -/

/-- Token calls that do not mint or burn. -/
abbrev Still : Address → Erc20.Call → Prop := fun _ k => Spec.FlashMint.QuietCall k

mutual
theorem quiet_of : ∀ a : Action, Calls Still a → Spec.FlashMint.Quiet a
  | .call _ _ => fun h => by simpa only [Calls, Spec.FlashMint.Quiet] using h
  | .loan _ _ _ cb _ => fun h => by
    simp only [Calls] at h
    simp only [Spec.FlashMint.Quiet]
    exact quietAll_of cb h
theorem quietAll_of : ∀ l : List Action, CallsAll Still l → Spec.FlashMint.QuietAll l
  | [] => fun _ => by simp only [Spec.FlashMint.QuietAll]
  | a :: l => fun h => by
    simp only [CallsAll] at h
    simp only [Spec.FlashMint.QuietAll]
    exact ⟨quiet_of a h.1, quietAll_of l h.2⟩
end

theorem still_op {D : Decoder} (c : Address) (i : Bytes) (op : Op) (h : NoMint D i) (hs : Says D i (abi op).1 (abi op).2) :
    op.calls Still c := by
  cases op with
  | mint a v => exact absurd hs (h a v)
  | _ => trivial

theorem Via.still {k k' : State} (h : Via Still k k') (hs : Erc20.SumOk k.token) :
    ∃ j, k'.token.totalSupply.toNat + j * burnt k = k.token.totalSupply.toNat := by
  obtain ⟨l, hl, rfl⟩ := h
  obtain ⟨j, _, hj⟩ := Props.FlashMint.quiet_execAll (env' k) l k.token hs (quietAll_of l hl)
  exact ⟨j, hj⟩

/-- **C110** If nobody calls `mint`, in any transaction or inside any loan at any depth: whatever loans are taken, the supply stays as
it is, or it falls by the fee once for each of some loans, if nobody receives the fees. -/
theorem C110_supply_restored (W : Others τ) (D : Decoder) {s : State × τ} (hr : Reached W D s)
    (hW : ∀ t a b c, Sends (fun _ _ i => NoMint D i) (W.react t a b c)) (l : List (Tx τ)) (hl : ∀ x ∈ l, NoMint D x.input) :
    ∃ j, (after W D s l).1.token.totalSupply.toNat + j * burnt s.1 = s.1.token.totalSupply.toNat :=
  (after_via (p := fun _ _ i => NoMint D i) hW still_op l hl s).still (reached_sum hr)

/-- **C110** The same for a loan that succeeds: if nobody receives the fees, the supply falls at least by one fee, and if somebody
receives them, it is what it was. -/
theorem C110_loan_supply (W : Others τ) (D : Decoder) (n : Nat) (caller : Address) {s : State × τ} (hr : Reached W D s)
    (hself : s.1.self_ ≠ ZERO) (hW : ∀ t a b c, Sends (fun _ _ i => NoMint D i) (W.react t a b c)) (r a : Address) (v : U256)
    (data : Bytes) (hl : (message "flashLoan(address,address,uint256,bytes)"
      [.address r, .address a, .uint256 v, .bytes data]).length < 2 ^ 256) (s' : State × τ) (out : Bytes)
    (h : lender W D (n + 1) caller s 0#256
      (message "flashLoan(address,address,uint256,bytes)" [.address r, .address a, .uint256 v, .bytes data]) = .returned s' out) :
    ∃ j, 1 ≤ j ∧ s'.1.token.totalSupply.toNat + j * burnt s.1 = s.1.token.totalSupply.toNat := by
  have hs := reached_sum hr
  obtain ⟨h1, h2, h3, h4, u1, k, t, d, u, h5, h6, h7, h8, rfl, -⟩ := (C110_loan W D n caller hr hself r a v data hl s' out).mp h
  have hu1 := (Vault.minted_iff hs).mpr ⟨h3, h4, h5⟩
  have hs1 : Erc20.SumOk u1 := Props.FlashMint.sumOk_exec (env' s.1) (.call r (.mint r v)) _ _ hs (by
      simp only [FlashMint.exec, Props.FlashMint.lift_ok]; exact hu1)
  obtain ⟨j, hj⟩ := (play_via (p := fun _ _ i => NoMint D i) (run_via hW still_op n) _ (hW _ _ _ _) _ _ _ _ h6).still hs1
  refine ⟨j + 1, by omega, ?_⟩
  have e1 := h8.supply
  have e2 := h5.supply
  have e3 : burnt { s.1 with token := u1 } = burnt s.1 := rfl
  rw [e3] at hj
  dsimp only at hj ⊢
  rw [Nat.add_mul, Nat.one_mul]
  omega

/-! ### A holder who is not asked -/

/-- All that `h` allows. -/
def allowed (u : Erc20.State) (h : Address) : Nat := ∑ p : Address, (u.allowances h p).toNat

/-- Over these states `h` allowed less and less, and lost at most what was used of it. -/
structure Safe (h : Address) (u u' : Erc20.State) : Prop where
  less : ∀ p, (u'.allowances h p).toNat ≤ (u.allowances h p).toNat
  lost : (u.balances h).toNat + allowed u' h ≤ (u'.balances h).toNat + allowed u h

/-- `h` allows nobody without limit. -/
def Limited (u : Erc20.State) (h : Address) : Prop := ∀ p, u.allowances h p ≠ maxU256

theorem Safe.refl (h : Address) (u : Erc20.State) : Safe h u u := ⟨fun _ => le_refl _, le_refl _⟩

theorem Safe.trans {h : Address} {u u' u'' : Erc20.State} (a : Safe h u u') (b : Safe h u' u'') : Safe h u u'' :=
  ⟨fun p => (b.less p).trans (a.less p), by have := a.lost; have := b.lost; omega⟩

theorem Safe.limited {h : Address} {u u' : Erc20.State} (a : Safe h u u') (hl : Limited u h) : Limited u' h := by
  intro p hp
  have h1 := a.less p
  rw [hp, maxU256_toNat] at h1
  exact hl p ((max_iff _).mpr (by have := (u.allowances h p).isLt; omega))

theorem allowed_drop {u u' : Erc20.State} {h x : Address} {d : Nat}
    (ha : ∀ p, (u'.allowances h p).toNat + (if p = x then d else 0) ≤ (u.allowances h p).toNat) :
    allowed u' h + d ≤ allowed u h := by
  have := Finset.sum_le_sum (s := Finset.univ) (fun p _ => ha p)
  rw [Finset.sum_add_distrib, Finset.sum_ite_eq' Finset.univ x, if_pos (Finset.mem_univ x)] at this
  exact this

theorem safe_of {h x : Address} {d : Nat} {u u' : Erc20.State}
    (ha : ∀ p, (u'.allowances h p).toNat + (if p = x then d else 0) ≤ (u.allowances h p).toNat)
    (hb : (u.balances h).toNat ≤ (u'.balances h).toNat + d) : Safe h u u' :=
  ⟨fun p => by have := ha p; omega, by have := allowed_drop ha; omega⟩

theorem safe_call {h c : Address} {k : Erc20.Call} {u u' : Erc20.State} (hs : Erc20.SumOk u) (hl : Limited u h) (hc : c ≠ h)
    (he : Erc20.exec u (c, k) = .ok u') : Safe h u u' := by
  have spend : ∀ {src dst : Address} {v : U256} {t1 : Erc20.State}, Erc20.spendAllowance u src c v = .ok t1 →
      Erc20.update t1 src dst v = .ok u' → Safe h u u' := by
    intro src dst v t1 h1 h2
    obtain ⟨hb1, hsup, _⟩ := Erc20.spend_frame h1
    have e := Erc20.update_effect (hs.of_frame hb1 hsup) h2
    have hb := e.bal h
    rw [hb1] at hb
    refine safe_of (x := c) (d := if src = h then v.toNat else 0) (fun p => ?_) ?_
    · rw [e.allow]
      rcases Erc20.spend_eq_ok.mp h1 with ⟨hm, rfl⟩ | ⟨_, hle, _, _, rfl⟩
      · rw [if_neg (show ¬ src = h by rintro rfl; exact hl c hm)]
        simp
      · simp only [upd2]
        by_cases hx : h = src ∧ p = c
        · obtain ⟨rfl, rfl⟩ := hx
          rw [if_pos ⟨rfl, rfl⟩, if_pos rfl, if_pos rfl, toNat_sub_of_ge hle]
          omega
        · rw [if_neg hx]
          split
          · rename_i hp
            rw [if_neg (fun e' => hx ⟨e'.symm, hp⟩)]
            exact le_refl _
          · exact le_refl _
    · by_cases hx : src = h
      · rw [if_pos hx]; split at hb <;> omega
      · rw [if_neg (fun e' => hx e'.1.symm)] at hb; rw [if_neg hx]; omega
  have own : ∀ {dst : Address} {v : U256}, Erc20.update u c dst v = .ok u' → Safe h u u' := by
    intro dst v h2
    have e := Erc20.update_effect hs h2
    have hb := e.bal h
    rw [if_neg (fun e' => hc e'.1.symm)] at hb
    exact safe_of (x := c) (d := 0) (fun p => by rw [e.allow]; simp) (by omega)
  cases k with
  | transfer dst v => exact own (Erc20.transferInternal_eq_ok.mp he).2.2
  | transferFrom src dst v =>
    obtain ⟨t1, h1, h2⟩ := Erc20.transferFrom_eq_ok.mp he
    exact spend h1 (Erc20.transferInternal_eq_ok.mp h2).2.2
  | approve sp v =>
    obtain ⟨_, _, rfl⟩ := Erc20.approve_eq_ok.mp he
    refine safe_of (x := c) (d := 0) (fun p => ?_) (by simp)
    simp only [upd2]
    rw [if_neg (fun e' => hc e'.1.symm)]
    simp
  | mint a v =>
    obtain ⟨_, hu⟩ := Erc20.mint_eq_ok.mp he
    have e := Erc20.update_effect hs hu
    have hb := e.bal h
    rw [if_neg (fun e' => e'.2 rfl)] at hb
    exact safe_of (x := c) (d := 0) (fun p => by rw [e.allow]; simp) (by omega)
  | burn v => exact own (Erc20.burnInternal_eq_ok.mp he).2
  | burnFrom a v =>
    obtain ⟨t1, h1, h2⟩ := Erc20.burnFrom_eq_ok.mp he
    exact spend h1 (Erc20.burnInternal_eq_ok.mp h2).2

/-- Calls that are not in the name of `h`. -/
abbrev NotBy (h : Address) : Address → Erc20.Call → Prop := fun c _ => c ≠ h

mutual
theorem safe_exec (k : State) (h : Address) : ∀ (a : Action) (u u' : Erc20.State), Erc20.SumOk u → Limited u h →
    Calls (NotBy h) a → FlashMint.exec (env' k) u a = .ok u' → Safe h u u'
  | .call c x => by
    intro u u' hs hl hc he
    simp only [Calls] at hc
    simp only [FlashMint.exec, Props.FlashMint.lift_ok] at he
    exact safe_call hs hl hc he
  | .loan r t v cb ans => by
    intro u u' hs hl hc he
    simp only [Calls] at hc
    simp only [FlashMint.exec, bind_eq_ok] at he
    obtain ⟨⟨f, u1⟩, hb, hf⟩ := he
    obtain ⟨_, rfl, _, _, hm⟩ := Props.FlashMint.begin_ok.mp hb
    have cr := created_of_mint hs hm
    have hs1 : Erc20.SumOk u1 := Props.FlashMint.sumOk_exec (env' k) (.call r (.mint r v)) _ _ hs (by
      simp only [FlashMint.exec, Props.FlashMint.lift_ok]; exact hm)
    have hl1 : Limited u1 h := by unfold Limited; rw [cr.allowances]; exact hl
    have s2 := safe_execAll k h cb u1 hs1 hl1 hc
    have hl2 := s2.limited hl1
    generalize hg : FlashMint.execAll (env' k) u1 cb = u2 at *
    have hs2 : Erc20.SumOk u2 := by rw [← hg]; exact Props.FlashMint.sumOk_execAll _ _ _ hs1
    obtain ⟨-, rp⟩ := finish_repaid hs2 hf
    have e1 := cr.balances h
    have e2 := rp.balances h
    have e3 := s2.lost
    have e4 : allowed u1 h = allowed u h := by unfold allowed; rw [cr.allowances]
    have e5 : allowed u' h + (if r = h then v.toNat + k.fee.toNat else 0) ≤ allowed u2 h := by
      refine allowed_drop (x := k.self_) fun p => ?_
      have := rp.allowances h p
      by_cases hr : r = h
      · subst hr
        by_cases hp : p = k.self_
        · rw [if_pos ⟨rfl, hp, fun e' => hl2 p ((max_iff _).mpr e')⟩] at this
          rw [if_pos hp, if_pos rfl]
          omega
        · rw [if_neg (fun e' => hp e'.2.1)] at this
          rw [if_neg hp]
          omega
      · rw [if_neg (fun e' => hr e'.1.symm)] at this
        rw [if_neg hr]
        simp only [ite_self]
        omega
    refine ⟨fun p => ?_, ?_⟩
    · have := rp.allowances h p
      have h2 := s2.less p
      rw [cr.allowances] at h2
      omega
    · by_cases hr : r = h
      · rw [if_pos hr.symm] at e1 e2
        rw [if_pos hr] at e5
        omega
      · rw [if_neg (fun e' => hr e'.symm)] at e1 e2
        rw [if_neg hr] at e5
        omega
theorem safe_execAll (k : State) (h : Address) : ∀ (l : List Action) (u : Erc20.State), Erc20.SumOk u → Limited u h →
    CallsAll (NotBy h) l → Safe h u (FlashMint.execAll (env' k) u l)
  | [] => by intro u _ _ _; simp only [FlashMint.execAll]; exact Safe.refl h u
  | a :: l => by
    intro u hs hl hc
    simp only [CallsAll] at hc
    simp only [FlashMint.execAll]
    split
    · rename_i u' he
      have s1 := safe_exec k h a u u' hs hl hc.1 he
      exact s1.trans (safe_execAll k h l u' (Props.FlashMint.sumOk_exec _ _ _ _ hs he) (s1.limited hl) hc.2)
    · exact safe_execAll k h l u hs hl hc.2
end

theorem notBy_op {h : Address} (c : Address) (op : Op) (hc : c ≠ h) : op.calls (NotBy h) c := by
  cases op <;> first | exact hc | trivial

/-- **C110** For an account in whose name nobody calls (in a transaction, or inside a loan at any depth), and that has not allowed
anybody to take tokens without limit: whatever programs do, all that it has allowed only falls, and it loses at most as many tokens
as that falls.  This holds even if loans are taken for it. -/
theorem C110_holder (W : Others τ) (D : Decoder) {s : State × τ} (hr : Reached W D s) (h : Address)
    (hl : ∀ p, (s.1.token.allowances h p).toNat ≠ 2 ^ 256 - 1)
    (hW : ∀ t a b c, Sends (fun c _ _ => c ≠ h) (W.react t a b c)) (l : List (Tx τ)) (hx : ∀ x ∈ l, x.sender ≠ h) :
    let s' := after W D s l
    (∀ p, (s'.1.token.allowances h p).toNat ≤ (s.1.token.allowances h p).toNat) ∧
    (s.1.token.balances h).toNat + ∑ p, (s'.1.token.allowances h p).toNat ≤
      (s'.1.token.balances h).toNat + ∑ p, (s.1.token.allowances h p).toNat := by
  obtain ⟨acts, ha, he⟩ := after_via (p := fun c _ _ => c ≠ h) (q := NotBy h) hW (fun c _ op hc _ => notBy_op c op hc) l hx s
  have := safe_execAll s.1 h acts s.1.token (reached_sum hr) (fun p hp => hl p ((max_iff _).mp hp)) ha
  intro s'
  have e : s'.1.token = FlashMint.execAll (env' s.1) s.1.token acts := congrArg State.token he
  rw [e]
  exact ⟨this.less, this.lost⟩

/-- **C110** An account that allows nothing, and in whose name nobody calls, loses nothing: in no history, whatever the programs are
and however deep their calls are nested. -/
theorem C110_nothing_lost (W : Others τ) (D : Decoder) {s : State × τ} (hr : Reached W D s) (h : Address)
    (hl : ∀ p, (s.1.token.allowances h p).toNat = 0)
    (hW : ∀ t a b c, Sends (fun c _ _ => c ≠ h) (W.react t a b c)) (l : List (Tx τ)) (hx : ∀ x ∈ l, x.sender ≠ h) :
    (s.1.token.balances h).toNat ≤ ((after W D s l).1.token.balances h).toNat := by
  have := (C110_holder W D hr h (fun p => by rw [hl p]; omega) hW l hx).2
  simp only [hl, Finset.sum_const_zero] at this
  omega

/-! ### Borrowers -/

theorem read_yes (D : Decoder) : D.read [.bytes32] (values [.bytes32 yes]) = some [.bytes32 yes] := by
  rw [show values [.bytes32 yes] = Verif.Spec.Revert.word yes from by
    simp [values, heads, tails, arg]]
  exact Props.Calls.read_one (v := .bytes32 yes) rfl

/-- A borrower that allows the token contract to take `x`, and answers as it should. -/
def repay (t : τ) (r self_ : Address) (x : U256) : Program τ :=
  .call t r 0#256 (message "approve(address,uint256)" [.address self_, .uint256 x]) fun ok _ t =>
    if ok then .stop t (values [.bytes32 yes]) else .fail []

theorem play_repay (W : Others τ) (D : Decoder) (n : Nat) (k : State) (t : τ) (r : Address) (x : U256) (hr : r ≠ ZERO)
    (hself : k.self_ ≠ ZERO) :
    ∃ u, play (run W keccak256 D (n + 1)) k (repay t r k.self_ x) = .returned ({ k with token := u }, t) (values [.bytes32 yes]) ∧
      u = { k.token with allowances := upd2 k.token.allowances r k.self_ x,
                         log := k.token.log ++ [.approval r k.self_ x] } := by
  refine ⟨_, ?_, rfl⟩
  have ha : Erc20.approve k.token r k.self_ x = .ok _ := Erc20.approve_eq_ok.mpr ⟨hr, hself, rfl⟩
  have hc := C110_call W D n r (k, t) (.approve k.self_ x) (words_lt _ _ (by simp [abi, arg]) (by simp [abi]))
  unfold exec at hc
  rw [show act W D n r (k, t) (.approve k.self_ x) = .ok (put (k, t) _) from inner_eq_ok.mpr ⟨_, ha, rfl⟩] at hc
  unfold repay play
  rw [show run W keccak256 D (n + 1) r (k, t) 0#256 (message "approve(address,uint256)" [.address k.self_, .uint256 x]) = _ from hc]
  rfl

/-- **C110** A loan for a borrower that has the fee, allows the token contract to take loan and fee, and answers as it should, always
succeeds.  It costs them the fee. -/
theorem C110_careful_borrower (W : Others τ) (D : Decoder) (n : Nat) (caller : Address) {s : State × τ} (hr : Reached W D s)
    (hself : s.1.self_ ≠ ZERO) (r : Address) (v : U256) (data : Bytes)
    (hl : (message "flashLoan(address,address,uint256,bytes)"
      [.address r, .address s.1.self_, .uint256 v, .bytes data]).length < 2 ^ 256)
    (hc : W.hasCode s.2 r = true) (h0 : r ≠ ZERO) (hv : s.1.token.totalSupply.toNat + v.toNat < 2 ^ 256)
    (hfit : v.toNat + s.1.fee.toNat < 2 ^ 256) (hfee : s.1.fee.toNat ≤ (s.1.token.balances r).toNat)
    (hp : W.react s.2 s.1.self_ r (message "onFlashLoan(address,address,uint256,uint256,bytes)"
      [.address caller, .address s.1.self_, .uint256 v, .uint256 s.1.fee, .bytes data]) = repay s.2 r s.1.self_ (v + s.1.fee)) :
    ∃ u, lender W D (n + 2) caller s 0#256 (message "flashLoan(address,address,uint256,bytes)"
        [.address r, .address s.1.self_, .uint256 v, .bytes data]) = .returned ({ s.1 with token := u }, s.2) (values [.bool true]) ∧
      (∀ a, (u.balances a).toNat + (if a = r then s.1.fee.toNat else 0) = (s.1.token.balances a).toNat +
        (if a = s.1.feeReceiver ∧ s.1.feeReceiver ≠ ZERO then s.1.fee.toNat else 0)) ∧
      u.totalSupply.toNat + burnt s.1 = s.1.token.totalSupply.toNat := by
  have hs := reached_sum hr
  obtain ⟨u1, hu⟩ := mint_iff.mpr ⟨h0, hv⟩
  have cr := created_of_mint hs hu
  obtain ⟨u2, h2, e2⟩ := play_repay W D n { s.1 with token := u1 } s.2 r (v + s.1.fee) h0 hself
  have hs1 : Erc20.SumOk u1 := Props.FlashMint.sumOk_exec (env' s.1) (.call r (.mint r v)) _ _ hs (by
      simp only [FlashMint.exec, Props.FlashMint.lift_ok]; exact hu)
  have hs2 : Erc20.SumOk u2 := hs1.of_frame (by rw [e2]) (by rw [e2])
  have b2 : u2.balances = u1.balances := by rw [e2]
  have a2 : u2.allowances r s.1.self_ = v + s.1.fee := by rw [e2]; simp [upd2]
  have br := cr.balances r
  rw [if_pos rfl] at br
  obtain ⟨u, h3⟩ := finish_exists (k := s.1) (v := v) hs2 h0 hself (by rw [a2, toNat_add_of_lt hfit]) (by rw [b2]; omega)
  have rp := (finish_repaid hs2 h3).2
  refine ⟨u, (loan_iff hl).mpr ⟨flashLoan_ok.mpr ⟨rfl, hc, hv, u1, { s.1 with token := u2 }, s.2, values [.bytes32 yes], u, hu, ?_,
    ?_, rfl⟩, rfl⟩, fun a => ?_, ?_⟩
  · rw [bytes_message]
    exact (congrArg _ hp).trans h2
  · rw [flashReply_iff.mpr (read_yes D), ← C110_magic]
    exact h3
  · have e1 := rp.balances a
    have e3 := cr.balances a
    rw [b2] at e1
    by_cases ha : a = r
    · simp only [if_pos ha] at *; omega
    · simp only [if_neg ha] at *; omega
  · have e1 := rp.supply
    have e3 := cr.supply
    have : u2.totalSupply = u1.totalSupply := by rw [e2]
    rw [this] at e1
    omega

/-- **C110** A standing allowance for the token contract can be used by anybody: if a borrower's program answers every loan as it
should and leaves the allowance as it is, then any account can take loans (of nothing, say) for them, each of which takes the fee
from them.  A borrower must look at who takes the loan. -/
theorem C110_anybody_charges (W : Others τ) (D : Decoder) (n : Nat) (caller : Address) {s : State × τ} (hr : Reached W D s)
    (hself : s.1.self_ ≠ ZERO) (r : Address) (data : Bytes)
    (hl : (message "flashLoan(address,address,uint256,bytes)"
      [.address r, .address s.1.self_, .uint256 0#256, .bytes data]).length < 2 ^ 256)
    (hc : W.hasCode s.2 r = true) (h0 : r ≠ ZERO) (hfr : r ≠ s.1.feeReceiver)
    (hfee : s.1.fee.toNat ≤ (s.1.token.balances r).toNat) (hal : s.1.fee.toNat ≤ (s.1.token.allowances r s.1.self_).toNat)
    (hp : W.react s.2 s.1.self_ r (message "onFlashLoan(address,address,uint256,uint256,bytes)"
      [.address caller, .address s.1.self_, .uint256 0#256, .uint256 s.1.fee, .bytes data]) = .stop s.2 (values [.bytes32 yes])) :
    ∃ u, lender W D (n + 1) caller s 0#256 (message "flashLoan(address,address,uint256,bytes)"
        [.address r, .address s.1.self_, .uint256 0#256, .bytes data]) =
          .returned ({ s.1 with token := u }, s.2) (values [.bool true]) ∧
      (u.balances r).toNat + s.1.fee.toNat = (s.1.token.balances r).toNat := by
  have hs := reached_sum hr
  have hv : s.1.token.totalSupply.toNat + (0#256).toNat < 2 ^ 256 := s.1.token.totalSupply.isLt
  obtain ⟨u1, hu⟩ := mint_iff.mpr ⟨h0, hv⟩
  have cr := created_of_mint hs hu
  have hs1 : Erc20.SumOk u1 := Props.FlashMint.sumOk_exec (env' s.1) (.call r (.mint r 0#256)) _ _ hs (by
      simp only [FlashMint.exec, Props.FlashMint.lift_ok]; exact hu)
  have br : (u1.balances r).toNat = (s.1.token.balances r).toNat := by
    have := cr.balances r
    simpa using this
  obtain ⟨u, h3⟩ := finish_exists (k := s.1) (v := 0#256) hs1 h0 hself (by rw [cr.allowances]; simpa using hal)
    (by rw [br]; simpa using hfee)
  have rp := (finish_repaid hs1 h3).2
  refine ⟨u, (loan_iff hl).mpr ⟨flashLoan_ok.mpr ⟨rfl, hc, hv, u1, { s.1 with token := u1 }, s.2, values [.bytes32 yes], u, hu, ?_,
    ?_, rfl⟩, rfl⟩, ?_⟩
  · rw [bytes_message]
    exact congrArg _ hp
  · rw [flashReply_iff.mpr (read_yes D), ← C110_magic]
    exact h3
  · have := rp.balances r
    rw [if_pos rfl, if_neg (fun e => hfr e.1), br] at this
    simpa using this

/-! ### Examples -/

theorem play_call {κ : Type} {r : Address → κ × τ → U256 → Bytes → Outcome (κ × τ)} {k k' : κ} {t t' : τ} {c : Address} {v : U256}
    {i d : Bytes} {next : Bool → Bytes → τ → Program τ} (h : r c (k, t) v i = .returned (k', t') d) :
    play r k (.call t c v i next) = play r k' (next true d t') := by
  rw [play, h]

/-- Programs that take a loan in the first loan they get, and then repay: the chain counts what happened. -/
def nested : Others Nat where
  hasCode _ _ := true
  react t sender target _ :=
    if t = 0 then
      .call 1 target 0#256 (message "flashLoan(address,address,uint256,bytes)"
        [.address target, .address sender, .uint256 7#256, .bytes []]) fun _ _ t => repay t target sender 1001#256
    else repay t target sender 8#256

theorem nested_first (a b : Address) (i : Bytes) : nested.react 0 a b i =
    .call 1 b 0#256 (message "flashLoan(address,address,uint256,bytes)"
        [.address b, .address a, .uint256 7#256, .bytes []]) fun _ _ t => repay t b a 1001#256 := by
  unfold nested
  simp only [if_true]

/-- A token that charges 1 and destroys it; the borrower has 5. -/
def lent5 : State := { newToken 0x70#160 1#256 ZERO with
  token := { Erc20.init with balances := upd (fun _ => 0#256) 0xb0#160 5#256, totalSupply := 5#256,
                             log := [.transfer ZERO 0xb0#160 5#256] } }

set_option maxRecDepth 100000 in
theorem lent5_reached (D : Decoder) (t : Nat) : Reached nested D (lent5, t) := by
  refine ⟨0x70#160, 1#256, ZERO, t, [⟨0xa1#160, 0#256, message "mint(address,uint256)" [.address 0xb0#160, .uint256 5#256], 1, id⟩], ?_⟩
  have h := C110_call nested D 0 0xa1#160 (newToken 0x70#160 1#256 ZERO, t) (.mint 0xb0#160 5#256)
    (words_lt _ _ (by simp [abi, arg]) (by simp [abi]))
  unfold Spec.FlashBytes.after
  simp only [List.foldl, step, id]
  rw [show run nested keccak256 D 1 0xa1#160 (newToken 0x70#160 1#256 ZERO, t) 0#256
    (message "mint(address,uint256)" [.address 0xb0#160, .uint256 5#256]) = _ from h]
  rfl

/-- `C110_careful_borrower` holds of the second loan: 7 are lent and repaid with the fee. -/
example (D : Decoder) (n : Nat) (caller : Address) : ∃ u, lender nested D (n + 2) caller (lent5, 1) 0#256
    (message "flashLoan(address,address,uint256,bytes)" [.address 0xb0#160, .address 0x70#160, .uint256 7#256, .bytes []]) =
      .returned ({ lent5 with token := u }, 1) (values [.bool true]) ∧ (u.balances 0xb0#160).toNat = 4 ∧ u.totalSupply.toNat = 4 := by
  obtain ⟨u, h1, h2, h3⟩ := C110_careful_borrower nested D n caller (lent5_reached D 1) (by decide) 0xb0#160 7#256 []
    (by rw [message_length]; decide +kernel) rfl (by decide) (by decide) (by decide) (by decide) rfl
  refine ⟨u, h1, ?_, ?_⟩
  · have := h2 0xb0#160
    have e : (lent5.token.balances 0xb0#160).toNat = 5 := by decide
    rw [if_pos rfl, if_neg (fun h => h.2 rfl), e] at this
    have e : lent5.fee.toNat = 1 := by decide
    dsimp only at this
    omega
  · have e : lent5.token.totalSupply.toNat = 5 := by decide
    have e' : burnt lent5 = 1 := by decide
    dsimp only at h3
    omega

/-- The same token after another 1000 were created for the borrower. -/
def lent1005 : State := { lent5 with
  token := { Erc20.init with balances := upd lent5.token.balances 0xb0#160 1005#256, totalSupply := 1005#256,
                             log := [.transfer ZERO 0xb0#160 5#256, .transfer ZERO 0xb0#160 1000#256] } }

theorem mint_1000 : Erc20.mint lent5.token 0xb0#160 1000#256 = .ok lent1005.token := by rfl

set_option maxRecDepth 100000 in
theorem lent1005_reached (D : Decoder) (t : Nat) : Reached nested D (lent1005, t) := by
  obtain ⟨a, f, r, t', l, h⟩ := lent5_reached D t
  refine ⟨a, f, r, t', l ++ [⟨0xa1#160, 0#256, message "mint(address,uint256)" [.address 0xb0#160, .uint256 1000#256], 1, id⟩], ?_⟩
  have hc := C110_call nested D 0 0xa1#160 (lent5, t) (.mint 0xb0#160 1000#256) (words_lt _ _ (by simp [abi, arg]) (by simp [abi]))
  unfold Spec.FlashBytes.after at h ⊢
  rw [List.foldl_append, ← h]
  simp only [List.foldl, step, id]
  unfold exec at hc
  have ha : act nested D 0 0xa1#160 (lent5, t) (.mint 0xb0#160 1000#256) = .ok (lent1005, t) :=
    (inner_eq_ok (err := .erc20)).mpr ⟨lent1005.token, mint_1000, rfl⟩
  rw [ha] at hc
  rw [show run nested keccak256 D 1 0xa1#160 (lent5, t) 0#256
    (message "mint(address,uint256)" [.address 0xb0#160, .uint256 1000#256]) = _ from hc]
  rfl

set_option maxRecDepth 100000 in
/-- A loan in a loan: `C110_loan` is met by a loan of 1000 in which the borrower takes and repays another one of 7.  Each costs 1. -/
example (D : Decoder) (n : Nat) (caller : Address) : ∃ u, lender nested D (n + 3) caller (lent5, 0) 0#256
    (message "flashLoan(address,address,uint256,bytes)" [.address 0xb0#160, .address 0x70#160, .uint256 1000#256, .bytes []]) =
      .returned ({ lent5 with token := u }, 1) (values [.bool true]) ∧ (u.balances 0xb0#160).toNat = 3 ∧ u.totalSupply.toNat = 3 := by
  have e1 : lent1005.fee.toNat = 1 := by decide
  have e2 : burnt lent1005 = 1 := by decide
  obtain ⟨u', h1, h2, h3⟩ := C110_careful_borrower nested D n 0xb0#160 (lent1005_reached D 1) (by decide) 0xb0#160 7#256 []
    (by rw [message_length]; decide +kernel) rfl (by decide) (by decide) (by decide) (by decide) rfl
  have h1 : run nested keccak256 D (n + 2) 0xb0#160 (lent1005, 1) 0#256 (message "flashLoan(address,address,uint256,bytes)"
      [.address 0xb0#160, .address 0x70#160, .uint256 7#256, .bytes []]) =
        .returned ({ lent1005 with token := u' }, 1) (values [.bool true]) := h1
  have b' : (u'.balances 0xb0#160).toNat = 1004 := by
    have := h2 0xb0#160
    have e : (lent1005.token.balances 0xb0#160).toNat = 1005 := by decide
    rw [if_pos rfl, if_neg (fun h => h.2 rfl), e] at this
    dsimp only at this
    omega
  have t' : u'.totalSupply.toNat = 1004 := by
    have e : lent1005.token.totalSupply.toNat = 1005 := by decide
    dsimp only at h3
    omega
  obtain ⟨u2, h4, h5⟩ := play_repay nested D (n + 1) { lent1005 with token := u' } 1 0xb0#160 1001#256 (by decide)
    (show 0x70#160 ≠ ZERO by decide)
  have hplay : play (run nested keccak256 D (n + 2)) lent1005
      (nested.react 0 0x70#160 0xb0#160 (message "onFlashLoan(address,address,uint256,uint256,bytes)"
        [.address caller, .address 0x70#160, .uint256 1000#256, .uint256 1#256, .bytes []])) =
      .returned ({ lent1005 with token := u2 }, 1) (values [.bytes32 yes]) := by
    rw [nested_first, play_call h1]
    exact h4
  have hs1 := reached_sum (lent1005_reached D 0)
  have hs2 := (play_any nested D (n + 2) _ hplay).sum hs1
  dsimp only at hs2
  have b2 : u2.balances = u'.balances := by rw [h5]
  have a2 : u2.allowances 0xb0#160 0x70#160 = 1001#256 := by rw [h5]; rfl
  have s2 : u2.totalSupply = u'.totalSupply := by rw [h5]
  obtain ⟨u, h6⟩ := finish_exists (k := lent5) (v := 1000#256) (r := 0xb0#160) hs2 (by decide) (by decide)
    (by rw [show u2.allowances 0xb0#160 lent5.self_ = _ from a2]; decide)
    (by rw [b2, b']; decide)
  have rp := (finish_repaid hs2 h6).2
  refine ⟨u, (loan_iff (by rw [message_length]; decide +kernel)).mpr ⟨flashLoan_ok.mpr ⟨rfl, rfl, by decide, lent1005.token,
    { lent1005 with token := u2 }, 1, values [.bytes32 yes], u, mint_1000, ?_, ?_, rfl⟩, rfl⟩, ?_, ?_⟩
  · rw [bytes_message]
    exact hplay
  · rw [flashReply_iff.mpr (read_yes D), ← C110_magic]
    exact h6
  · have := rp.balances 0xb0#160
    rw [if_pos rfl, if_neg (fun h => h.2 rfl), b2, b'] at this
    have e : (1000#256).toNat = 1000 := by decide
    have e' : lent5.fee.toNat = 1 := by decide
    omega
  · have := rp.supply
    rw [s2, t'] at this
    have e : (1000#256).toNat = 1000 := by decide
    have e' : burnt lent5 = 1 := by decide
    omega

end Verif.Props.FlashBytes
