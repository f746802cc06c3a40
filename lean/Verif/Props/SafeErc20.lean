import Verif.Spec.SafeErc20
import Verif.Proofs.Erc20
/-! # C25, C26: SafeERC20 -/

namespace Verif.Props.SafeErc20
open Verif.SafeErc20 Verif.Spec.SafeErc20

theorem beNat_append (l : Bytes) (b : U8) : beNat (l ++ [b]) = beNat l * 256 + b.toNat := by
  simp [beNat, List.foldl_append]

theorem beNat_lt (l : Bytes) : beNat l < 256 ^ l.length := by
  induction l using List.reverseRecOn with
  | nil => simp [beNat]
  | append_singleton l b ih =>
    rw [beNat_append, List.length_append, List.length_singleton, pow_succ]
    have := b.isLt
    omega

theorem beNat_take_lt (l : Bytes) : beNat (l.take 32) < 2 ^ 256 := by
  have h := beNat_lt (l.take 32)
  have h2 : (l.take 32).length ≤ 32 := by simp
  have : 256 ^ (l.take 32).length ≤ 256 ^ 32 := Nat.pow_le_pow_right (by norm_num) h2
  have e : (256 : Nat) ^ 32 = 2 ^ 256 := by norm_num
  omega

theorem beNat_eq_zero (l : Bytes) : beNat l = 0 ↔ ∀ b ∈ l, b = 0#8 := by
  induction l using List.reverseRecOn with
  | nil => simp [beNat]
  | append_singleton l b ih =>
    rw [beNat_append]
    simp only [List.mem_append, List.mem_singleton]
    have hb : b.toNat = 0 ↔ b = 0#8 := by
      rw [BitVec.toNat_eq]; simp
    constructor
    · intro h
      have h1 : beNat l = 0 := by omega
      have h2 : b.toNat = 0 := by omega
      rintro x (hx | rfl)
      · exact ih.mp h1 x hx
      · exact hb.mp h2
    · intro h
      have h1 := ih.mpr (fun x hx => h x (Or.inl hx))
      have h2 := hb.mpr (h b (Or.inr rfl))
      omega

theorem encodesTrue_iff (l : Bytes) : encodesTrue l = true ↔ beNat l = 1 := by
  induction l using List.reverseRecOn with
  | nil => simp [beNat, encodesTrue]
  | append_singleton l b _ =>
    rw [beNat_append]
    simp only [encodesTrue, List.getLast?_append, List.getLast?_singleton, Option.some_or,
      List.dropLast_concat, Bool.and_eq_true, decide_eq_true_eq, List.all_eq_true]
    rw [← beNat_eq_zero]
    have hb : b = 1#8 ↔ b.toNat = 1 := by rw [BitVec.toNat_eq]; simp
    rw [hb]
    have := b.isLt
    omega

theorem encodeBe_length (n x : Nat) : (encodeBe n x).length = n := by
  induction n generalizing x with
  | zero => rfl
  | succ n ih => simp [encodeBe, ih]

theorem beNat_encodeBe (n x : Nat) : beNat (encodeBe n x) = x % 256 ^ n := by
  induction n generalizing x with
  | zero => simp [encodeBe, beNat, Nat.mod_one]
  | succ n ih =>
    rw [encodeBe, beNat_append, ih, BitVec.toNat_ofNat]
    have : (256 : Nat) ^ (n + 1) = 256 * 256 ^ n := by rw [Nat.pow_succ, Nat.mul_comm]
    rw [this, Nat.mod_mul]
    have : (2 : Nat) ^ 8 = 256 := rfl
    omega

theorem beNat_encodeWord (w : U256) : beNat ((encodeWord w).take 32) = w.toNat := by
  have : (encodeWord w).take 32 = encodeWord w :=
    List.take_of_length_le (by rw [encodeWord, encodeBe_length])
  rw [this, encodeWord, beNat_encodeBe]
  exact Nat.mod_eq_of_lt (lt_of_lt_of_eq w.isLt (by norm_num))

/-! ## C25 -/

theorem accepted_code (ret : Bytes) :
    ((ret.take BOOL_TYPE_SIZE).isEmpty || encodesTrue (ret.take BOOL_TYPE_SIZE)) = true ↔
      Accepted ret := by
  unfold Accepted BOOL_TYPE_SIZE
  rw [Bool.or_eq_true, encodesTrue_iff]
  simp

/-- The raw decision of `call_optional_return`. -/
theorem call_ok_iff {τ : Type} (tok : Token τ) (t t' : τ) (r : Req) :
    callOptionalReturn tok t r = (t', .ok ()) ↔
      tok.hasCode = true ∧ ∃ ret, tok.call t r = some (t', ret) ∧ Accepted ret := by
  unfold callOptionalReturn
  cases hc : tok.hasCode with
  | false => simp
  | true =>
    cases hx : tok.call t r with
    | none => simp
    | some p =>
      obtain ⟨t1, ret⟩ := p
      simp only [Bool.true_eq_false, if_false, true_and, Option.some.injEq, Prod.mk.injEq]
      by_cases h : Accepted ret
      · rw [if_pos ((accepted_code ret).mpr h)]
        constructor
        · intro e
          have e1 : t1 = t' := by injection e
          exact ⟨ret, ⟨e1, rfl⟩, h⟩
        · rintro ⟨_, ⟨rfl, _⟩, _⟩; rfl
      · rw [if_neg (fun e => h ((accepted_code ret).mp e))]
        constructor
        · intro e; injection e with _ e2; cases e2
        · rintro ⟨ret', ⟨_, rfl⟩, h'⟩; exact absurd h' h

theorem call_result {τ : Type} (tok : Token τ) (t : τ) (r : Req) :
    (callOptionalReturn tok t r).2 = .ok () ∨
      (callOptionalReturn tok t r).2 = .error .failedOperation := by
  unfold callOptionalReturn
  split
  · exact Or.inr rfl
  · split
    · exact Or.inr rfl
    · dsimp only
      split
      · exact Or.inl rfl
      · exact Or.inr rfl

/-- **C25** For every token program: `safe_transfer` succeeds iff the address has code, the call did not
revert, and the answer is empty or, cut to 32 bytes, the number one; the token then sits in the state
its own call produced.  In every other case the error is `SafeErc20FailedOperation`: in particular no
panic, whatever the token returns. -/
theorem C25_safe_transfer {τ : Type} (tok : Token τ) (t : τ) (dst : Address) (v : U256) :
    (∀ t', safeTransfer tok t dst v = (t', .ok ()) ↔
      tok.hasCode = true ∧ ∃ ret, tok.call t (.transfer dst v) = some (t', ret) ∧ Accepted ret) ∧
    ((safeTransfer tok t dst v).2 = .ok () ∨
      (safeTransfer tok t dst v).2 = .error .failedOperation) :=
  ⟨fun t' => call_ok_iff tok t t' _, call_result tok t _⟩

/-- **C25** Same for `safe_transfer_from`. -/
theorem C25_safe_transfer_from {τ : Type} (tok : Token τ) (t : τ) (src dst : Address) (v : U256) :
    (∀ t', safeTransferFrom tok t src dst v = (t', .ok ()) ↔
      tok.hasCode = true ∧
        ∃ ret, tok.call t (.transferFrom src dst v) = some (t', ret) ∧ Accepted ret) ∧
    ((safeTransferFrom tok t src dst v).2 = .ok () ∨
      (safeTransferFrom tok t src dst v).2 = .error .failedOperation) :=
  ⟨fun t' => call_ok_iff tok t t' _, call_result tok t _⟩

/-- **C25** For an answer of at least 32 bytes, acceptance means that the first word is the ABI
encoding of `true`. -/
theorem C25_full_word (ret : Bytes) (h : 32 ≤ ret.length) :
    Accepted ret ↔ ret.take 32 = encodeTrue := by
  have hlen : (ret.take 32).length = 32 := by simp [h]
  constructor
  · rintro (rfl | h1)
    · simp at h
    · -- a 32-byte string is determined by its value
      have inj : ∀ n (l l' : Bytes), l.length = n → l'.length = n → beNat l = beNat l' → l = l' := by
        intro n
        induction n with
        | zero =>
          intro l l' hl hl' _
          rw [List.length_eq_zero_iff] at hl hl'; rw [hl, hl']
        | succ n ih =>
          intro l l' hl hl' he
          rcases List.eq_nil_or_concat l with rfl | ⟨m, b, rfl⟩
          · simp at hl
          rcases List.eq_nil_or_concat l' with rfl | ⟨m', b', rfl⟩
          · simp at hl'
          rw [List.concat_eq_append] at *
          rw [List.concat_eq_append] at *
          simp only [List.length_append, List.length_singleton, Nat.add_right_cancel_iff] at hl hl'
          rw [beNat_append, beNat_append] at he
          have hb := b.isLt
          have hb' := b'.isLt
          have e1 : b = b' := by apply BitVec.eq_of_toNat_eq; omega
          have e2 := ih m m' hl hl' (by omega)
          rw [e1, e2]
      apply inj 32 _ _ hlen (by rw [encodeTrue, encodeWord, encodeBe_length])
      rw [h1, encodeTrue, encodeWord, beNat_encodeBe]
      rfl
  · intro e
    right
    rw [e, encodeTrue, encodeWord, beNat_encodeBe]
    rfl

/-- **C25** (finding) The bytes looked at need not be a whole word: a single byte `01` is accepted. -/
theorem C25_short_answer_accepted {τ : Type} (t : τ) (dst : Address) (v : U256) :
    safeTransfer ⟨true, fun t _ => some (t, [1#8])⟩ t dst v = (t, .ok ()) := by
  rw [(C25_safe_transfer _ _ _ _).1]
  exact ⟨rfl, _, rfl, Or.inr rfl⟩

/-- Answers `false`, two, and a one followed by other bytes in the first word are refused; a plain
`true` and no data at all are accepted. -/
example : Accepted encodeTrue ∧ Accepted [] ∧ ¬ Accepted (encodeWord 0#256) ∧
    ¬ Accepted (encodeWord 2#256) ∧ ¬ Accepted (1#8 :: List.replicate 31 0#8) := by
  unfold Accepted; decide +kernel

/-! ## C26 -/

theorem read_allowance {τ : Type} {tok : Token τ} {me : Address} {al : τ → Address → U256}
    (hc : Conforms tok me al) (t : τ) (sp : Address) :
    allowance tok t me sp = (t, .ok (al t sp)) := by
  unfold allowance BOOL_TYPE_SIZE
  rw [hc.code, hc.read]
  simp only [Bool.true_eq_false, if_false]
  rw [beNat_encodeWord, if_pos (al t sp).isLt, BitVec.ofNat_toNat, BitVec.setWidth_eq]

theorem call_not_accepted {τ : Type} {tok : Token τ} {t t' : τ} {r : Req} {ret : Bytes}
    (hc : tok.hasCode = true) (h : tok.call t r = some (t', ret)) (hn : ¬ Accepted ret) :
    callOptionalReturn tok t r = (t', .error .failedOperation) := by
  unfold callOptionalReturn
  rw [hc, h]
  simp only [Bool.true_eq_false, if_false]
  rw [if_neg (fun e => hn ((accepted_code ret).mp e))]

theorem call_reverted {τ : Type} {tok : Token τ} {t : τ} {r : Req}
    (hc : tok.hasCode = true) (h : tok.call t r = none) :
    callOptionalReturn tok t r = (t, .error .failedOperation) := by
  unfold callOptionalReturn
  rw [hc, h]
  simp

/-- **C26** `force_approve` succeeds against every conforming token and leaves exactly the requested
allowance, every other allowance untouched. -/
theorem C26_force_approve {τ : Type} {tok : Token τ} {me : Address} {al : τ → Address → U256}
    (hc : Conforms tok me al) (t : τ) (sp : Address) (v : U256) (hsp : sp ≠ ZERO) :
    ∃ t', forceApprove tok t sp v = (t', .ok ()) ∧ al t' = upd (al t) sp v := by
  have again : ∀ t1, al t1 = al t →
      ∃ t', (match callOptionalReturn tok t1 (.approve sp 0#256) with
        | (t2, .error e) => (t2, .error e)
        | (t2, .ok ()) => callOptionalReturn tok t2 (.approve sp v)) = (t', .ok ()) ∧
        al t' = upd (al t) sp v := by
    intro t1 h1
    obtain ⟨t2, r2, c2, a2, e2⟩ := hc.approve t1 sp 0#256 hsp (Or.inl rfl)
    have k2 := (call_ok_iff tok t1 t2 (.approve sp 0#256)).mpr ⟨hc.code, r2, c2, a2⟩
    obtain ⟨t3, r3, c3, a3, e3⟩ := hc.approve t2 sp v hsp (Or.inr (by rw [e2, upd_same]))
    have k3 := (call_ok_iff tok t2 t3 (.approve sp v)).mpr ⟨hc.code, r3, c3, a3⟩
    refine ⟨t3, ?_, ?_⟩
    · rw [k2]; exact k3
    · rw [e3, e2, h1]
      funext x
      by_cases hx : x = sp
      · subst hx; simp
      · simp [upd_ne _ _ hx]
  unfold forceApprove
  rcases hc.replace t sp v hsp with h | ⟨t1, ret, h, ⟨ha, he⟩ | ⟨hn, he⟩⟩
  · rw [call_reverted hc.code h]
    exact again t rfl
  · rw [(call_ok_iff tok t t1 _).mpr ⟨hc.code, ret, h, ha⟩]
    exact ⟨t1, rfl, he⟩
  · rw [call_not_accepted hc.code h hn]
    exact again t1 he

/-- **C26** `safe_increase_allowance`: the result is `current + v` if that fits in 256 bits; otherwise a
panic, nothing changed. -/
theorem C26_increase {τ : Type} {tok : Token τ} {me : Address} {al : τ → Address → U256}
    (hc : Conforms tok me al) (t : τ) (sp : Address) (v : U256) (hsp : sp ≠ ZERO) :
    ((al t sp).toNat + v.toNat < 2 ^ 256 →
      ∃ t' w, safeIncreaseAllowance tok t me sp v = (t', .ok ()) ∧ al t' = upd (al t) sp w ∧
        w.toNat = (al t sp).toNat + v.toNat) ∧
    (2 ^ 256 ≤ (al t sp).toNat + v.toNat →
      safeIncreaseAllowance tok t me sp v = (t, .error .panic)) := by
  unfold safeIncreaseAllowance
  rw [read_allowance hc]
  dsimp only
  constructor
  · intro h
    have hx : checkedAdd (al t sp) v = some (al t sp + v) := by
      unfold checkedAdd; rw [if_pos h]
    obtain ⟨t', h1, h2⟩ := C26_force_approve hc t sp (al t sp + v) hsp
    rw [hx]
    exact ⟨t', _, h1, h2, toNat_add_of_lt h⟩
  · intro h
    have hx : checkedAdd (al t sp) v = none := checkedAdd_eq_none.mpr h
    rw [hx]

/-- **C26** `safe_decrease_allowance`: the result is `current - v` if `v` does not exceed the current
allowance; otherwise the dedicated error, nothing changed. -/
theorem C26_decrease {τ : Type} {tok : Token τ} {me : Address} {al : τ → Address → U256}
    (hc : Conforms tok me al) (t : τ) (sp : Address) (v : U256) (hsp : sp ≠ ZERO) :
    (v.toNat ≤ (al t sp).toNat →
      ∃ t' w, safeDecreaseAllowance tok t me sp v = (t', .ok ()) ∧ al t' = upd (al t) sp w ∧
        w.toNat + v.toNat = (al t sp).toNat) ∧
    ((al t sp).toNat < v.toNat →
      safeDecreaseAllowance tok t me sp v
        = (t, .error (.failedDecreaseAllowance sp (al t sp) v))) := by
  unfold safeDecreaseAllowance
  rw [read_allowance hc]
  dsimp only
  constructor
  · intro h
    obtain ⟨t', h1, h2⟩ := C26_force_approve hc t sp (al t sp - v) hsp
    rw [if_neg (by rw [BitVec.lt_def]; omega)]
    exact ⟨t', _, h1, h2, by rw [toNat_sub_of_ge h]; omega⟩
  · intro h
    rw [if_pos (by rw [BitVec.lt_def]; exact h)]

theorem accepted_true : Accepted encodeTrue := by unfold Accepted; decide +kernel

/-- **C26** This library's own ERC-20 is a conforming token (for a non-zero caller). -/
theorem C26_standard_conforms (me : Address) (hme : me ≠ ZERO) :
    Conforms (standardToken me) me (fun s sp => s.allowances me sp) := by
  have app : ∀ (s : Erc20.State) sp v, sp ≠ ZERO →
      ∃ s', (standardToken me).call s (.approve sp v) = some (s', encodeTrue) ∧
        (fun x => s'.allowances me x) = upd (fun x => s.allowances me x) sp v := by
    intro s sp v hsp
    obtain ⟨s', hx⟩ : ∃ s', Erc20.approveInternal s me sp v true = .ok s' :=
      ⟨_, Erc20.approve_eq_ok.mpr ⟨hme, hsp, rfl⟩⟩
    refine ⟨s', by simp only [standardToken, Erc20.approve, hx], ?_⟩
    · obtain ⟨_, _, rfl⟩ := Erc20.approve_eq_ok.mp hx
      funext x
      by_cases e : x = sp
      · subst e; simp [upd2]
      · rw [upd_ne _ _ e]; simp [upd2, e]
  refine ⟨rfl, fun _ _ => rfl, ?_, ?_⟩
  · intro s sp v hsp _
    obtain ⟨s', h1, h2⟩ := app s sp v hsp
    exact ⟨s', _, h1, accepted_true, h2⟩
  · intro s sp v hsp
    obtain ⟨s', h1, h2⟩ := app s sp v hsp
    exact Or.inr ⟨s', _, h1, Or.inl ⟨accepted_true, h2⟩⟩

/-- **C26** So is the Tether-style token. -/
theorem C26_usdt_conforms (me : Address) : Conforms usdtToken me (fun a sp => a sp) := by
  refine ⟨rfl, fun _ _ => rfl, ?_, ?_⟩
  · intro a sp v hsp h
    refine ⟨upd a sp v, [], ?_, Or.inl rfl, rfl⟩
    simp only [usdtToken]
    rw [if_neg]
    rintro ⟨h1, h2⟩
    rcases h with h | h
    · exact h1 h
    · exact h2 h
  · intro a sp v hsp
    by_cases h : v ≠ 0#256 ∧ a sp ≠ 0#256
    · left; simp only [usdtToken]; rw [if_pos h]
    · right
      refine ⟨upd a sp v, [], ?_, Or.inl ⟨Or.inl rfl, rfl⟩⟩
      simp only [usdtToken]; rw [if_neg h]

/-- The Tether-style token really refuses a plain second approval, and `force_approve` gets through. -/
example : callOptionalReturn usdtToken (fun _ => 5#256) (.approve 3#160 7#256)
    = (fun _ => 5#256, .error .failedOperation) := rfl
example : ∃ a, forceApprove usdtToken (fun _ => 5#256) 3#160 7#256 = (a, .ok ()) ∧ a 3#160 = 7#256 := by
  obtain ⟨a, h1, h2⟩ := C26_force_approve (C26_usdt_conforms 1#160) (fun _ => 5#256) 3#160 7#256
    (by decide)
  exact ⟨a, h1, by have := congrFun h2 3#160; simpa using this⟩

/-- **C26** None of the helpers panics except on the documented overflow, for any token at all. -/
theorem C26_only_documented_panic {τ : Type} (tok : Token τ) (t : τ) (me sp : Address) (v : U256) :
    (forceApprove tok t sp v).2 ≠ .error .panic ∧
    (safeDecreaseAllowance tok t me sp v).2 ≠ .error .panic ∧
    ((safeIncreaseAllowance tok t me sp v).2 = .error .panic →
      ∃ t' cur, allowance tok t me sp = (t', .ok cur) ∧ 2 ^ 256 ≤ cur.toNat + v.toNat) := by
  have hcall : ∀ (t : τ) r, (callOptionalReturn tok t r).2 ≠ .error .panic := by
    intro t r h
    rcases call_result tok t r with e | e <;> rw [e] at h <;> cases h
  have hal : ∀ t : τ, (allowance tok t me sp).2 ≠ .error .panic := by
    intro t
    unfold allowance BOOL_TYPE_SIZE
    split
    · simp
    · split
      · simp
      · dsimp only
        rw [if_pos (beNat_take_lt _)]
        simp
  have hf : ∀ (t : τ) w, (forceApprove tok t sp w).2 ≠ .error .panic := by
    intro t w
    unfold forceApprove
    rcases h1 : callOptionalReturn tok t (.approve sp w) with ⟨t1, _ | ⟨⟨⟩⟩⟩
    · dsimp only
      rcases h2 : callOptionalReturn tok t1 (.approve sp 0#256) with ⟨t2, e | ⟨⟨⟩⟩⟩
      · have := hcall t1 (.approve sp 0#256)
        rw [h2] at this
        exact this
      · exact hcall t2 _
    · simp
  refine ⟨hf t v, ?_, ?_⟩
  · unfold safeDecreaseAllowance
    rcases h : allowance tok t me sp with ⟨t1, e | cur⟩
    · have := hal t; rw [h] at this
      intro h'
      dsimp only at h' this
      injection h' with h'
      exact this (by rw [h'])
    · dsimp only
      split
      · simp
      · exact hf _ _
  · unfold safeIncreaseAllowance
    rcases h : allowance tok t me sp with ⟨t1, e | cur⟩
    · intro h'
      have := hal t; rw [h] at this
      dsimp only at h' this
      injection h' with h'
      exact absurd (by rw [h']) this
    · dsimp only
      cases hx : checkedAdd cur v with
      | none => intro _; exact ⟨t1, cur, rfl, checkedAdd_eq_none.mp hx⟩
      | some w => intro h'; exact absurd h' (hf _ _)

end Verif.Props.SafeErc20
