import Verif.Spec.Contracts
import Verif.Proofs.Entry
import Verif.Model.Contracts
/-!
# Contracts on bytes: what holds for every table of functions
-/
namespace Verif.Proofs.Contracts
open Verif Verif.Abi Verif.Entry Verif.Proofs.Abi Verif.Proofs.Entry
open Verif.Interfaces (SolType)
open Verif.Router (Fn Contract)
open Verif.Spec.Keccak (keccak256)
open Verif.Spec.Router (contracts)
open Verif.Spec.Calls (sel tail array)
open Verif.Spec.Contracts
open Verif.Props.Router (routeSig table)

/-- How a code is sent. -/
def argOf : U256 ⊕ Bytes → Arg
  | .inl w => .word w
  | .inr b => .behind b

theorem array_code (l : List U256) : be32 (BitVec.ofNat 256 l.length) ++ l.flatMap be32 = array l := by
  simp only [array, Props.Revert.be32_word]
  congr 2
  funext x; exact Props.Revert.be32_word x

theorem arg_eq (v : Val) : arg v = argOf v.code := by
  have ext : ∀ {n : Nat} (x : BitVec n), n ≤ 256 → x.setWidth 256 = BitVec.ofNat 256 x.toNat := by
    intro n x hn
    apply BitVec.eq_of_toNat_eq
    rw [BitVec.toNat_setWidth, BitVec.toNat_ofNat]
  have str : ∀ b : Bytes, sized b = tail b := by
    intro b; simp [sized, tail, Props.Revert.be32_word]
  cases v with
  | address a => rw [address_code]; rfl
  | uint256 x => rfl
  | uint64 x => simp only [arg, Val.code, argOf, ext x (by omega)]
  | uint8 x => simp only [arg, Val.code, argOf, ext x (by omega)]
  | bytes4 x => rfl
  | bytes32 x => rfl
  | bool b => rfl
  | bytes b => simp only [arg, Val.code, argOf, str]
  | string s => simp only [arg, Val.code, argOf, str]
  | uints l => simp only [arg, Val.code, argOf, array_code]
  | addresses l =>
    have h := array_code (l.map Spec.Revert.addr)
    rw [List.length_map, List.flatMap_map] at h
    simp only [arg, Val.code, argOf]
    rw [← h, show (fun a : Address => be32 (a.setWidth 256)) = fun a => be32 (Spec.Revert.addr a) from
      funext fun a => by rw [ext a (by omega)]; rfl]
  | bytes32s l => simp only [arg, Val.code, argOf, array_code]
  | bools l =>
    have h := array_code (l.map Spec.Calls.flag)
    rw [List.length_map, List.flatMap_map] at h
    simp only [arg, Val.code, argOf]
    rw [← h]
    rfl

theorem headsTails_eq : ∀ (vs : List Val) (pos : Nat),
    headsTails pos vs = (heads pos (vs.map arg), tails (vs.map arg)) := by
  intro vs
  induction vs with
  | nil => intro pos; rfl
  | cons v vs ih =>
    intro pos
    rw [List.map_cons, arg_eq, headsTails]
    cases v.code with
    | inl w => simp only [ih, argOf, heads, tails, Props.Revert.be32_word]
    | inr b => simp only [ih, argOf, heads, tails, Props.Revert.be32_word]

/-- The encoder computes the encoding of the specification. -/
theorem encode_values (vs : List Val) : encode vs = values vs := by
  unfold encode values
  rw [headsTails_eq]

theorem isStatic_iff (v : Val) : v.isStatic ↔ ∃ w, arg v = .word w := by
  rw [arg_eq]
  unfold Val.isStatic
  cases v.code <;> simp [argOf]

/-- `entry_call` with the message of the specification. -/
theorem entry_message {σ : Type} {c : Spec.Router.Entry} (hc : c ∈ contracts) (D : Decoder) (h : Handler σ) (s : σ)
    {sg t n : String} (hs : (sg, t, n) ∈ c.abi) {f : Fn} (hr : routeSig c.contract sg = some (t, f))
    {args : List Val} (ht : args.map Val.type = flat f.args) (hl : (message sg args).length < 2 ^ 256) :
    entry keccak256 D c.contract h s 0#256 (message sg args) = outcome (h t f.rustName args s) := by
  unfold message at *
  rw [← encode_values] at *
  refine entry_call hc D h s (Props.Router.rows_ok c hc _ hs).1 hr ht ?_
  rw [List.length_append] at hl
  omega

/-- `entry_message` in the form used per contract. -/
theorem run_message {σ : Type} {c : Spec.Router.Entry} (hc : c ∈ contracts) (D : Decoder) (h : Handler σ) (s : σ)
    (sg : String) (args : List Val) {t : String} {f : Fn} {out : Outcome σ} (hr : routeSig c.contract sg = some (t, f))
    (ht : args.map Val.type = flat f.args) (ho : outcome (h t f.rustName args s) = out)
    (hs : sg ∈ c.abi.map Prod.fst) (hl : (message sg args).length < 2 ^ 256) :
    entry keccak256 D c.contract h s 0#256 (message sg args) = out := by
  obtain ⟨⟨_, t', n⟩, hm, rfl⟩ := List.mem_map.mp hs
  rw [← ho]
  unfold message at *
  rw [← encode_values] at *
  refine entry_call hc D h s (Props.Router.rows_ok c hc _ hm).1 hr ht ?_
  rw [List.length_append] at hl
  omega

theorem outcome_finish {σ ε : Type} {K : Hash} {rep : ε → Revert.Reply} (r : List Val) (x : Except ε σ) :
    outcome (finish K rep r x) = reply (fun e => ((rep e).data K).getD []) (giving x r) := by
  cases x with
  | ok s => show Outcome.returned _ _ = Outcome.returned _ _; rw [encode_values]
  | error e => rfl

theorem heads_words (l : List Val) (h : ∀ v ∈ l, ∃ w, arg v = .word w) (pos : Nat) :
    (heads pos (l.map arg)).length = 32 * l.length ∧ tails (l.map arg) = [] := by
  induction l with
  | nil => exact ⟨rfl, rfl⟩
  | cons v l ih =>
    obtain ⟨w, hw⟩ := h v (by simp)
    obtain ⟨i1, i2⟩ := ih fun v hv => h v (by simp [hv])
    simp only [List.map_cons, hw, heads, tails, i2, List.length_append, i1, List.length_cons, and_true]
    rw [← Props.Revert.be32_word, be32_length]
    omega

/-- The message of a few words is short. -/
theorem words_lt (sg : String) (args : List Val) (h : ∀ v ∈ args, ∃ w, arg v = .word w) (hn : args.length < 2 ^ 32) :
    (message sg args).length < 2 ^ 256 := by
  obtain ⟨h1, h2⟩ := heads_words args h (32 * args.length)
  unfold message values
  rw [h2, List.append_nil, List.length_append, h1, ← be4_selector, be4_length]
  omega

theorem outcome_ok {σ : Type} (s : σ) (r : List Val) : outcome (.ok (s, r)) = .returned s (values r) := by
  show Outcome.returned _ _ = _; rw [encode_values]

/-- The outcome of a row that is an operation. -/
macro "operation" : tactic => `(tactic| first | exact outcome_finish _ _ | exact outcome_ok _ _)

/-- The bytes of an error. -/
theorem error_bytes (n : String) (fs : List Revert.Val) (sig : String) {ws : List U256}
    (h : Interfaces.signature n.toList (fs.map Revert.Val.type) = sig.toList) (hw : fs.map Props.Revert.wordOf = ws) :
    (Revert.Reply.data keccak256 (.error ⟨n, fs⟩)).getD [] = Spec.Calls.call sig ws := by
  subst hw
  exact Props.Revert.encode_eq keccak256 ⟨n, fs⟩ sig h

theorem view_error {σ ε : Type} {rep : ε → Revert.Reply} (s : σ) (e : ε) (n : String) (fs : List Revert.Val) (sig : String)
    {ws : List U256} (he : rep e = .error ⟨n, fs⟩)
    (h : Interfaces.signature n.toList (fs.map Revert.Val.type) = sig.toList) (hw : fs.map Props.Revert.wordOf = ws) :
    outcome (Contracts.view keccak256 rep s (.error e)) = .reverted (Spec.Calls.call sig ws) := by
  rw [← error_bytes n fs sig h hw, ← he]; rfl

theorem interface_bool (b : Bool) (l : List (BitVec 32)) {x : BitVec 32} (h : b = true ↔ x ∈ l) : b = decide (x ∈ l) := by
  rw [Bool.eq_iff_iff, h, decide_eq_true_eq]

/-- `balanceOf` of ERC-721. -/
theorem balance_view {σ : Type} (s : σ) (u : Erc721.State) (a : Address) :
    outcome (Contracts.view keccak256 Revert.erc721 s (Contracts.one .uint256 (Erc721.balanceOf u a))) =
      if a = ZERO then .reverted (Spec.Calls.call "ERC721InvalidOwner(address)" [Spec.Revert.addr ZERO])
      else .returned s (values [.uint256 (u.balances a)]) := by
  unfold Erc721.balanceOf
  by_cases h : a = ZERO
  · rw [if_pos h, if_pos h]; exact view_error s _ _ _ _ rfl rfl rfl
  · rw [if_neg h, if_neg h]; exact outcome_ok _ _

/-- `ownerOf` of ERC-721. -/
theorem owner_view {σ : Type} (s : σ) (u : Erc721.State) (i : U256) :
    outcome (Contracts.view keccak256 Revert.erc721 s (Contracts.one .address (Erc721.ownerOf u i))) =
      if u.owners i = ZERO then .reverted (Spec.Calls.call "ERC721NonexistentToken(uint256)" [i])
      else .returned s (values [.address (u.owners i)]) := by
  unfold Erc721.ownerOf Erc721.requireOwned Erc721.ownerOfInternal
  by_cases h : u.owners i = ZERO
  · rw [if_pos h, if_pos h]; exact view_error s _ _ _ _ rfl rfl rfl
  · rw [if_neg h, if_neg h]; exact outcome_ok _ _

/-- `getApproved` of ERC-721. -/
theorem approved_view {σ : Type} (s : σ) (u : Erc721.State) (i : U256) :
    outcome (Contracts.view keccak256 Revert.erc721 s (Contracts.one .address (Erc721.getApproved u i))) =
      if u.owners i = ZERO then .reverted (Spec.Calls.call "ERC721NonexistentToken(uint256)" [i])
      else .returned s (values [.address (u.tokenApprovals i)]) := by
  unfold Erc721.getApproved Erc721.requireOwned Erc721.ownerOfInternal
  by_cases h : u.owners i = ZERO
  · rw [if_pos h, if_pos h]; exact view_error s _ _ _ _ rfl rfl rfl
  · rw [if_neg h, if_neg h]; exact outcome_ok _ _

/-- `balanceOfBatch` of ERC-1155. -/
theorem batch_view {σ : Type} (s : σ) (u : Erc1155.State) (as : List Address) (ids : List U256) :
    outcome (Contracts.view keccak256 Revert.erc1155 s (Contracts.one .uints (Erc1155.balanceOfBatch u as ids))) =
      if ids.length = as.length then .returned s (values [.uints (List.zipWith (fun a i => u.balances i a) as ids)])
      else .reverted (Spec.Calls.call "ERC1155InvalidArrayLength(uint256,uint256)"
        [BitVec.ofNat 256 ids.length, BitVec.ofNat 256 as.length]) := by
  unfold Erc1155.balanceOfBatch Erc1155.requireEqualLength
  by_cases h : ids.length = as.length
  · rw [if_pos h, if_neg (by simpa using h)]
    rw [← outcome_ok, List.zip, List.map_zipWith]
    rfl
  · rw [if_neg h, if_pos h]; exact view_error s _ _ _ _ rfl rfl rfl

theorem pos_iff (x : U256) : 0#256 < x ↔ x ≠ 0#256 := by
  rw [BitVec.lt_def]
  constructor
  · rintro h rfl; exact lt_irrefl _ h
  · intro h
    have : x.toNat ≠ 0 := fun e => h (BitVec.eq_of_toNat_eq e)
    show 0 < x.toNat
    omega

theorem word_inj {x y : U256} (h : Spec.Revert.word x = Spec.Revert.word y) : x = y := by
  have := congrArg Spec.Logs.number h
  rw [Props.Logs.number_word, Props.Logs.number_word] at this
  exact BitVec.eq_of_toNat_eq this

theorem uint256_inj {x y : U256} (h : values [.uint256 x] = values [.uint256 y]) : x = y := by
  simp only [values, heads, tails, arg, List.map_cons, List.map_nil, List.append_nil] at h
  exact word_inj h

theorem address_inj {x y : Address} (h : values [.address x] = values [.address y]) : x = y := by
  simp only [values, heads, tails, arg, List.map_cons, List.map_nil, List.append_nil] at h
  have h := congrArg BitVec.toNat (word_inj h)
  apply BitVec.eq_of_toNat_eq
  unfold Spec.Revert.addr at h
  simp only [BitVec.toNat_ofNat] at h
  have h1 := x.isLt
  have h2 := y.isLt
  omega

/-- Every input: refused without data, or a call of one of the functions of the table, executed. -/
theorem entry_cases {σ : Type} {c : Spec.Router.Entry} (hc : c ∈ contracts) (D : Decoder) (h : Handler σ) (s : σ)
    (value : U256) (input : Bytes) :
    entry keccak256 D c.contract h s value input = .reverted [] ∨
    value = 0#256 ∧ ∃ sg t n args, (sg, t, n) ∈ c.abi ∧ Says D input sg args ∧
      entry keccak256 D c.contract h s value input = outcome (h t n args s) := by
  unfold entry
  split
  · exact .inl rfl
  · rename_i hv
    split
    · exact .inl rfl
    · rename_i h4
      cases hr : c.contract.route keccak256 (selectorOf input) with
      | none => exact .inl rfl
      | some p =>
        obtain ⟨t, f⟩ := p
        simp only
        obtain ⟨sg, hsg, hsel⟩ := (Props.Router.C97_abi hc (selectorOf input) t f.rustName).mp ⟨f, hr, rfl⟩
        cases hd : D.read (flat f.args) (input.drop 4) with
        | none => exact .inl rfl
        | some args =>
          have h4' : 4 ≤ input.length := by omega
          have hs4 : sel sg = input.take 4 := by rw [← be4_selector, ← hsel, be4_selectorOf h4']
          refine .inr ⟨by simpa using hv, sg, t, f.rustName, args, hsg, ⟨?_, ?_, ?_⟩, rfl⟩
          · rw [hs4]; exact List.take_prefix _ _
          · rw [D.typed _ _ _ hd, hd]
          · intro hst
            obtain ⟨tl, htl⟩ := D.static _ _ _ hd fun v hv => (isStatic_iff v).mpr (hst v hv)
            refine ⟨tl, ?_⟩
            unfold message
            rw [← encode_values, hs4, List.append_assoc, htl, List.take_append_drop]

/-- A dispatched call is a row of the table. -/
theorem dispatch_ok {α : Type} {t f : String} {args : List Val}
    {table : List (String × String × (List Val → Except (Option Bytes) α))} {x : α} (h : dispatch t f args table = .ok x) :
    ∃ r ∈ table, r.1 = t ∧ r.2.1 = f ∧ r.2.2 args = .ok x := by
  unfold dispatch at h
  split at h
  · rename_i r hr
    have hk := List.find?_some hr
    simp only [Bool.and_eq_true, decide_eq_true_eq] at hk
    exact ⟨r, List.mem_of_find?_eq_some hr, hk.1, hk.2, h⟩
  · cases h

theorem finish_ok {σ ε : Type} {K : Hash} {reply : ε → Revert.Reply} {r0 r : List Val} {x : Except ε σ} {s' : σ}
    (h : finish K reply r0 x = .ok (s', r)) : giving x r0 = .ok (s', r) := by
  cases x with
  | ok y =>
    simp only [finish, Except.ok.injEq] at h
    rw [← h]; rfl
  | error e => cases h

theorem view_ok {σ ε : Type} {K : Hash} {reply : ε → Revert.Reply} {s s' : σ} {x : Except ε (List Val)} {r : List Val}
    (h : Contracts.view K reply s x = .ok (s', r)) : s' = s := by
  cases x with
  | ok y => simp only [Contracts.view, Except.ok.injEq, Prod.mk.injEq] at h; exact h.1.symm
  | error e => cases h

/-- What the operations of a contract are: each function of the table leaves the state as it is or is an operation. -/
structure Ops {σ Env Op ε : Type} (c : Spec.Router.Entry) (h : Env → Handler σ)
    (abi : Op → String × List Val) (exec : Env → σ → Op → Except ε (σ × List Val)) : Prop where
  inv : ∀ (env : Env) (s : σ) (sg t n : String) (args : List Val) (s' : σ) (r : List Val),
    (sg, t, n) ∈ c.abi → h env t n args s = .ok (s', r) → s' = s ∨ ∃ op, abi op = (sg, args) ∧ exec env s op = .ok (s', r)

/-- Nothing but the operations has an effect. -/
theorem no_other_effect {σ Env Op ε : Type} {c : Spec.Router.Entry} (hc : c ∈ contracts) {h : Env → Handler σ}
    {abi : Op → String × List Val} {exec : Env → σ → Op → Except ε (σ × List Val)} (H : Ops c h abi exec)
    (D : Decoder) (env : Env) (s : σ) (value : U256) (input : Bytes) :
    (∃ data, entry keccak256 D c.contract (h env) s value input = .reverted data) ∨
    (∃ data, entry keccak256 D c.contract (h env) s value input = .returned s data) ∨
    ∃ op s' r, exec env s op = .ok (s', r) ∧ entry keccak256 D c.contract (h env) s value input = .returned s' (values r) ∧
      value = 0#256 ∧ Says D input (abi op).1 (abi op).2 := by
  rcases entry_cases hc D (h env) s value input with h1 | ⟨hv, sg, t, n, args, hsg, hsay, h1⟩
  · exact .inl ⟨_, h1⟩
  · cases hh : h env t n args s with
    | error e => rw [hh] at h1; exact .inl ⟨_, h1⟩
    | ok p =>
      obtain ⟨s', r⟩ := p
      rw [hh] at h1
      right
      rcases H.inv env s sg t n args s' r hsg hh with rfl | ⟨op, hop, hex⟩
      · exact .inl ⟨_, h1⟩
      · refine .inr ⟨op, s', r, hex, ?_, hv, ?_⟩
        · rw [h1, ← encode_values]; rfl
        · rw [hop]; exact hsay

/-- A list of raw transactions is a history of operations. -/
theorem raw_history {σ Env Op ε : Type} {c : Spec.Router.Entry} (hc : c ∈ contracts) {h : Env → Handler σ}
    {abi : Op → String × List Val} {exec : Env → σ → Op → Except ε (σ × List Val)} (H : Ops c h abi exec)
    (D : Decoder) (s : σ) (txs : List (Raw Env)) :
    ∃ ops : List (Env × Op),
      after (fun env s value input => entry keccak256 D c.contract (h env) s value input) s txs = history exec s ops ∧
      (ops.map Prod.fst).Sublist (txs.map Raw.env) := by
  induction txs generalizing s with
  | nil => exact ⟨[], rfl, List.Sublist.slnil⟩
  | cons tx txs ih =>
    have hcons : after (fun env s value input => entry keccak256 D c.contract (h env) s value input) s (tx :: txs) =
        after (fun env s value input => entry keccak256 D c.contract (h env) s value input)
          ((entry keccak256 D c.contract (h tx.env) s tx.value tx.input).after s) txs := rfl
    rw [hcons]
    rcases no_other_effect hc H D tx.env s tx.value tx.input with ⟨d, h⟩ | ⟨d, h⟩ | ⟨op, s', r, he, h, _, _⟩
    · rw [h]
      obtain ⟨ops, h1, h2⟩ := ih s
      exact ⟨ops, h1, h2.cons _⟩
    · rw [h]
      obtain ⟨ops, h1, h2⟩ := ih s
      exact ⟨ops, h1, h2.cons _⟩
    · rw [h]
      obtain ⟨ops, h1, h2⟩ := ih s'
      refine ⟨(tx.env, op) :: ops, ?_, h2.cons_cons _⟩
      show after _ s' txs = _
      rw [h1]
      unfold history
      rw [List.foldl_cons, he]

/-- Operations as transactions of a model. -/
theorem history_runOf {σ Env Op ε T : Type} {exec : Env → σ → Op → Except ε (σ × List Val)} {exec' : σ → T → Except ε σ}
    (tx : Env × Op → T) {r : Op → List Val} (h : ∀ env s op, exec env s op = giving (exec' s (tx (env, op))) (r op)) (s : σ)
    (ops : List (Env × Op)) : history exec s ops = runOf exec' s (ops.map tx) := by
  unfold history runOf
  rw [List.foldl_map]
  congr 1
  funext s x
  unfold stepOf
  rw [h]
  cases exec' s (tx (x.1, x.2)) <;> rfl

theorem giving_ok {σ ε : Type} {x : Except ε σ} {r r' : List Val} {s' : σ} (h : giving x r = .ok (s', r')) : x = .ok s' := by
  cases x with
  | ok y => cases h; rfl
  | error e => cases h

theorem sent_history {σ Env Op ε : Type} {run : Env → σ → U256 → Bytes → Outcome σ} {exec : Env → σ → Op → Except ε (σ × List Val)}
    {abi : Op → String × List Val} {revert : ε → Bytes}
    (h : ∀ env s op, (message (abi op).1 (abi op).2).length < 2 ^ 256 →
      run env s 0#256 (message (abi op).1 (abi op).2) = reply revert (exec env s op)) (l : List (Env × Op)) :
    ∀ s, (∀ x ∈ l, (message (abi x.2).1 (abi x.2).2).length < 2 ^ 256) → after run s (sent abi l) = history exec s l := by
  induction l with
  | nil => intro s _; rfl
  | cons x l ih =>
    intro s hl
    show after run ((run x.1 s 0#256 (message (abi x.2).1 (abi x.2).2)).after s) (sent abi l) = _
    rw [h _ _ _ (hl x (List.mem_cons_self ..)), ih _ fun y hy => hl y (List.mem_cons_of_mem _ hy)]
    show _ = history exec (match exec x.1 s x.2 with | .ok (s', _) => s' | .error _ => s) l
    cases exec x.1 s x.2 <;> rfl

theorem message_length (sg : String) (args : List Val) : (message sg args).length = 4 + (values args).length := by
  unfold message
  rw [List.length_append, ← be4_selector, be4_length]

/-- An account for the examples. -/
def alice : Address := 0xa11ce#160

/-- Another. -/
def bob : Address := 0xb0b#160

theorem after_snoc {σ Env : Type} (run : Env → σ → U256 → Bytes → Outcome σ) (s : σ) (txs : List (Raw Env)) (tx : Raw Env) :
    after run s (txs ++ [tx]) = (run tx.env (after run s txs) tx.value tx.input).after (after run s txs) := by
  unfold after
  rw [List.foldl_append]; rfl

set_option hygiene false in
/-- Proof of `Ops.inv`: go through the rows of the table; `d` are the definitions that recover the signature. -/
macro "rows" hh:ident hm:ident "[" d:Lean.Parser.Tactic.simpLemma,* "]" : tactic => `(tactic| (
    obtain ⟨x, hmem, rfl, rfl, h2⟩ := dispatch_ok $hh
    clear $hh
    simp only [Contracts.erc20Views, Contracts.erc721Views, Contracts.erc1155Views, List.cons_append, List.nil_append,
      List.mem_cons, List.not_mem_nil, or_false] at hmem
    rcases hmem with rfl | rfl | rfl | rfl | rfl | rfl | rfl | rfl | rfl | rfl | rfl | rfl | rfl | rfl | rfl | rfl | rfl |
        rfl | rfl | rfl | rfl | rfl | rfl | rfl | rfl | rfl | rfl | rfl | rfl | rfl | rfl | rfl | rfl | rfl | rfl | rfl |
        rfl | rfl | rfl | rfl <;>
      dsimp only at h2 $hm:ident <;> split at h2 <;>
      first
      | (cases h2; done)
      | exact .inl (view_ok h2)
      | (cases h2; exact .inl rfl)
      | exact .inr ⟨_, by simpa [$d,*, eq_comm] using $hm, finish_ok h2⟩))

set_option hygiene false in
/-- The same when the operations cannot be read off the handler: `os` are their shapes, in the order of the rows. -/
macro "rows" hh:ident hm:ident "[" d:Lean.Parser.Tactic.simpLemma,* "]" "operations" "[" os:term,* "]" : tactic => do
  let each ← os.getElems.mapM fun o =>
    `(tactic| focus exact Or.inr (Exists.intro $o ⟨rfl, finish_ok h2⟩))
  `(tactic| (
    obtain ⟨x, hmem, rfl, rfl, h2⟩ := dispatch_ok $hh
    clear $hh
    simp only [Contracts.erc20Views, Contracts.erc721Views, Contracts.erc1155Views, List.cons_append, List.nil_append,
      List.mem_cons, List.not_mem_nil, or_false] at hmem
    rcases hmem with rfl | rfl | rfl | rfl | rfl | rfl | rfl | rfl | rfl | rfl | rfl | rfl | rfl | rfl | rfl | rfl | rfl |
        rfl | rfl | rfl | rfl | rfl | rfl | rfl | rfl | rfl | rfl | rfl | rfl | rfl | rfl | rfl | rfl | rfl | rfl | rfl |
        rfl | rfl | rfl | rfl
    all_goals dsimp only at h2 $hm:ident
    all_goals split at h2
    all_goals try (first | (cases h2; done) | exact .inl (view_ok h2) | (cases h2; exact .inl rfl))
    all_goals simp [$d,*] at $hm:ident
    all_goals subst $hm
    ($[$each:tactic]*)))

end Verif.Proofs.Contracts
