import Verif.Spec.Erc20Permit
import Verif.Proofs.Erc20
import Verif.Props.Utils
import Verif.Props.Crypto
/-! # C13, C14: permits -/

namespace Verif.Props.Permit
open Verif.Permit Verif.Spec.Permit

theorem digest_eq (E : Env) (o sp : Address) (v n d : U256) :
    Eip712.hashTypedData E.K E.domain (E.K (encodeStruct E.K o sp v n d)) = digest E o sp v n d := by
  unfold Eip712.hashTypedData Eip712.toTypedDataHash Eip712.preimage Eip712.domainSeparator
    Eip712.encodeDomain encodeStruct digest Eip712.typeString typeString
  simp only [List.append_assoc]

theorem liftErc20_ok {α : Type} {x : Except Erc20.Err α} {a : α} :
    liftErc20 x = .ok a ↔ x = .ok a := by cases x <;> simp [liftErc20]

theorem liftEcdsa_ok {α : Type} {x : Except Ecdsa.Err α} {a : α} :
    liftEcdsa x = .ok a ↔ x = .ok a := by cases x <;> simp [liftEcdsa]

theorem liftNonce_ok {α : Type} {x : Except Nonces.Err α} {a : α} :
    liftNonce x = .ok a ↔ x = .ok a := by cases x <;> simp [liftNonce]

theorem now_setWidth (t : U64) : (t.setWidth 256).toNat = t.toNat := by
  rw [BitVec.toNat_setWidth]
  exact Nat.mod_eq_of_lt (by have := t.isLt; omega)

theorem permit_ok {E : Env} {st st' : State} {o sp : Address} {val d : U256} {v : U8} {r s : B256} :
    permit E st o sp val d v r s = .ok st' ↔
      st.now.toNat ≤ d.toNat ∧ ∃ n nn e, Nonces.useNonce st.nonces o = .ok (n, nn) ∧
        Ecdsa.recover E.P (digest E o sp val n d) v r s = .ok o ∧
        Erc20.approveInternal st.erc20 o sp val true = .ok e ∧
        st' = { st with erc20 := e, nonces := nn } := by
  unfold permit
  by_cases ht : d < st.now.setWidth 256
  · have := BitVec.lt_def.mp ht
    rw [now_setWidth] at this
    simp only [ht, if_true, except_throw, except_bind_error]
    constructor
    · intro h; cases h
    · rintro ⟨h, _⟩; omega
  · have h1 : st.now.toNat ≤ d.toNat := by
      have := mt BitVec.lt_def.mpr ht; rw [now_setWidth] at this; omega
    simp only [ht, if_false, except_pure, except_bind_ok, bind_eq_ok, liftNonce_ok, liftEcdsa_ok,
      liftErc20_ok, h1, true_and, digest_eq, Except.ok.injEq, Prod.exists]
    constructor
    · rintro ⟨n, nn, h2, signer, h3, h4⟩
      by_cases hs : signer = o
      · subst hs
        simp only [ne_eq, not_true_eq_false, if_false, bind_eq_ok, Except.ok.injEq, liftErc20_ok] at h4
        obtain ⟨e, h5, rfl⟩ := h4
        exact ⟨n, nn, e, h2, h3, h5, rfl⟩
      · simp [hs] at h4
    · rintro ⟨n, nn, e, h2, h3, h4, rfl⟩
      refine ⟨n, nn, h2, o, h3, ?_⟩
      simp only [ne_eq, not_true_eq_false, if_false, bind_eq_ok, Except.ok.injEq, liftErc20_ok]
      exact ⟨e, h4, rfl⟩

/-- **C13** `permit` succeeds exactly when it is not expired, the owner's nonces are not exhausted, the
spender is not zero, and the signature recovers to `owner` over the EIP-712 digest of exactly these
arguments with the owner's current nonce. -/
theorem C13_succeeds_iff (E : Env) (st : State) (o sp : Address) (val d : U256) (v : U8) (r s : B256) :
    (∃ st', permit E st o sp val d v r s = .ok st') ↔
      st.now.toNat ≤ d.toNat ∧ nonce st o + 1 < 2 ^ 256 ∧ sp ≠ ZERO ∧
      Ecdsa.recover E.P (digest E o sp val (Nonces.nonceOf st.nonces o) d) v r s = .ok o := by
  constructor
  · rintro ⟨st', h⟩
    obtain ⟨h1, n, nn, e, h2, h3, h4, _⟩ := permit_ok.mp h
    obtain ⟨rfl, hn, _⟩ := Verif.Props.Utils.C32_use_nonce h2
    refine ⟨h1, ?_, (Erc20.approve_eq_ok.mp h4).2.1, h3⟩
    have := (Nonces.nonceOf nn o).isLt
    unfold nonce; omega
  · rintro ⟨h1, h2, h3, h4⟩
    cases hu : Nonces.useNonce st.nonces o with
    | error e =>
      have := Verif.Props.Utils.C32_use_nonce_fails_iff.mp ⟨e, hu⟩
      unfold nonce at h2
      rw [this, maxU256_toNat] at h2
      omega
    | ok p =>
      obtain ⟨n, nn⟩ := p
      obtain ⟨rfl, _⟩ := Verif.Props.Utils.C32_use_nonce hu
      have ho : o ≠ ZERO := ((Verif.Props.Crypto.C42_recover_ok_iff _ _ _ _ _ _).mp h4).2.2.2.1
      exact ⟨_, permit_ok.mpr ⟨h1, _, _, _, hu, h4, Erc20.approve_eq_ok.mpr ⟨ho, h3, rfl⟩, rfl⟩⟩

/-- **C13** What a successful `permit` does, and nothing else: the allowance of that pair is `value`, the
owner's nonce moves on by one, one `Approval` event. -/
theorem C13_effect (E : Env) (st st' : State) (o sp : Address) (val d : U256) (v : U8) (r s : B256)
    (h : permit E st o sp val d v r s = .ok st') :
    (∀ a b, Erc20.allowance st'.erc20 a b = if a = o ∧ b = sp then val
      else Erc20.allowance st.erc20 a b) ∧
    (∀ a, Erc20.balanceOf st'.erc20 a = Erc20.balanceOf st.erc20 a) ∧
    Erc20.totalSupplyOf st'.erc20 = Erc20.totalSupplyOf st.erc20 ∧
    st'.erc20.log = st.erc20.log ++ [.approval o sp val] ∧
    (∀ a, nonce st' a = nonce st a + (if a = o then 1 else 0)) ∧ st'.now = st.now := by
  obtain ⟨_, n, nn, e, h2, _, h4, rfl⟩ := permit_ok.mp h
  obtain ⟨_, hn, hne⟩ := Verif.Props.Utils.C32_use_nonce h2
  obtain ⟨_, _, rfl⟩ := Erc20.approve_eq_ok.mp h4
  refine ⟨fun a b => rfl, fun _ => rfl, rfl, rfl, fun a => ?_, rfl⟩
  unfold nonce
  by_cases ha : a = o
  · rw [if_pos ha, ha]; exact hn
  · rw [if_neg ha, Nat.add_zero]; exact congrArg _ (hne a ha)

/-- **C13** An expired permit fails with the dedicated error whatever the signature. -/
theorem C13_expired (E : Env) (st : State) (o sp : Address) (val d : U256) (v : U8) (r s : B256)
    (h : d.toNat < st.now.toNat) : permit E st o sp val d v r s = .error (.expiredSignature d) := by
  have : d < st.now.setWidth 256 := BitVec.lt_def.mpr (by rw [now_setWidth]; exact h)
  unfold permit
  simp only [this, if_true, except_throw, except_bind_error]

/-- **C13** A signature by somebody else is reported with that signer. -/
theorem C13_wrong_signer (E : Env) (st : State) (o sp signer : Address) (val d : U256) (v : U8)
    (r s : B256) (ht : st.now.toNat ≤ d.toNat) (hn : nonce st o + 1 < 2 ^ 256) (hs : signer ≠ o)
    (h : Ecdsa.recover E.P (digest E o sp val (Nonces.nonceOf st.nonces o) d) v r s = .ok signer) :
    permit E st o sp val d v r s = .error (.invalidSigner signer o) := by
  have ht' : ¬ d < st.now.setWidth 256 := fun hc => by
    have := BitVec.lt_def.mp hc; rw [now_setWidth] at this; omega
  cases hu : Nonces.useNonce st.nonces o with
  | error e =>
    have := Verif.Props.Utils.C32_use_nonce_fails_iff.mp ⟨e, hu⟩
    unfold nonce at hn
    rw [this, maxU256_toNat] at hn
    omega
  | ok p =>
    obtain ⟨n, nn⟩ := p
    obtain ⟨rfl, _⟩ := Verif.Props.Utils.C32_use_nonce hu
    unfold permit
    simp only [ht', if_false, except_pure, except_bind_ok, hu, liftNonce, digest_eq, h, liftEcdsa,
      ne_eq, hs, not_false_eq_true, if_true, except_throw, except_bind_error]

/-- **C13** The signed message determines owner, spender, value, nonce and deadline: a signature over
one permit's message is a signature over no other. -/
theorem C13_message_injective (E : Env) (o o' sp sp' : Address) (v v' n n' d d' : U256)
    (h : message E o sp v n d = message E o' sp' v' n' d') :
    o = o' ∧ sp = sp' ∧ v = v' ∧ n = n' ∧ d = d' := by
  unfold message at h
  simp only [List.append_assoc] at h
  obtain ⟨_, h⟩ := be32_cons h
  obtain ⟨h1, h⟩ := abiAddress_cons h
  obtain ⟨h2, h⟩ := abiAddress_cons h
  obtain ⟨h3, h⟩ := be32_cons h
  obtain ⟨h4, h⟩ := be32_cons h
  exact ⟨h1, h2, h3, h4, be32_inj h⟩

/-! ## C14 -/

theorem nonce_exec {E : Env} {st st' : State} {c : Call} (h : exec E st c = .ok st') (o : Address) :
    nonce st o ≤ nonce st' o := by
  cases c with
  | token caller c =>
    simp only [exec, bind_eq_ok, except_pure, Except.ok.injEq] at h
    obtain ⟨e, _, rfl⟩ := h
    exact le_refl _
  | permit o' sp val d v r s =>
    have := (C13_effect E st st' o' sp val d v r s h).2.2.2.2.1 o
    omega
  | tick t =>
    simp only [exec, Except.ok.injEq] at h
    subst h
    exact le_refl _

/-- **C14** Over every history no nonce ever decreases. -/
theorem C14_nonces_monotone (E : Env) (st : State) (ops : List Call) (o : Address) :
    nonce st o ≤ nonce (run E st ops) o := by
  induction ops generalizing st with
  | nil => exact le_refl _
  | cons c ops ih =>
    have : run E st (c :: ops) = run E (stepOf (exec E) st c) ops := rfl
    rw [this]
    refine le_trans ?_ (ih _)
    cases h : exec E st c with
    | error e => rw [stepOf_error h]
    | ok st' => rw [stepOf_ok h]; exact nonce_exec h o

/-- **C14** Two permits of one owner accepted anywhere in a history used different nonces, so their
signed messages differ. -/
theorem C14_no_replay (E : Env) (st st1 st2 : State) (ops : List Call) (o sp sp' : Address)
    (val val' d d' : U256) (v v' : U8) (r r' s s' : B256)
    (h1 : permit E st o sp val d v r s = .ok st1)
    (h2 : permit E (run E st1 ops) o sp' val' d' v' r' s' = .ok st2) :
    nonce st o < nonce (run E st1 ops) o ∧
    message E o sp val (Nonces.nonceOf st.nonces o) d ≠
      message E o sp' val' (Nonces.nonceOf (run E st1 ops).nonces o) d' := by
  have e1 := (C13_effect _ _ _ _ _ _ _ _ _ _ h1).2.2.2.2.1 o
  rw [if_pos rfl] at e1
  have e2 := C14_nonces_monotone E st1 ops o
  have hlt : nonce st o < nonce (run E st1 ops) o := by omega
  refine ⟨hlt, fun hm => ?_⟩
  have := (C13_message_injective E _ _ _ _ _ _ _ _ _ _ hm).2.2.2.1
  unfold nonce at hlt
  rw [this] at hlt
  omega

/-- **C14** Submitting a permit again, at any later time, succeeds only if the same signature also
recovers to `owner` over a second, different digest - or the two messages or pre-images (named here) are
a hash collision. -/
theorem C14_resubmission (E : Env) (st st1 st2 : State) (ops : List Call) (o sp : Address)
    (val d : U256) (v : U8) (r s : B256)
    (h1 : permit E st o sp val d v r s = .ok st1)
    (h2 : permit E (run E st1 ops) o sp val d v r s = .ok st2) :
    let m1 := message E o sp val (Nonces.nonceOf st.nonces o) d
    let m2 := message E o sp val (Nonces.nonceOf (run E st1 ops).nonces o) d
    let sep := domainSeparator E
    Crypto.Collision E.K m1 m2 ∨
    Crypto.Collision E.K (Eip712.preimage sep (E.K m1)) (Eip712.preimage sep (E.K m2)) ∨
    ∃ g1 g2 : B256, g1 ≠ g2 ∧ Ecdsa.recover E.P g1 v r s = .ok o ∧
      Ecdsa.recover E.P g2 v r s = .ok o := by
  intro m1 m2 sep
  have hne := (C14_no_replay E st st1 st2 ops o sp sp val val d d v v r r s s h1 h2).2
  have d1 : ∀ n, digest E o sp val n d = E.K (Eip712.preimage sep (E.K (message E o sp val n d))) := by
    intro n
    unfold digest Eip712.preimage
    simp only [sep, domainSeparator, Eip712.domainSeparator, Eip712.encodeDomain, message,
      Eip712.typeString, List.append_assoc]
  obtain ⟨_, _, _, r1⟩ := (C13_succeeds_iff E st o sp val d v r s).mp ⟨_, h1⟩
  obtain ⟨_, _, _, r2⟩ := (C13_succeeds_iff E _ o sp val d v r s).mp ⟨_, h2⟩
  by_cases c1 : E.K m1 = E.K m2
  · exact Or.inl ⟨hne, c1⟩
  · right
    have hp : Eip712.preimage sep (E.K m1) ≠ Eip712.preimage sep (E.K m2) := fun e =>
      c1 (Crypto.C43_preimage_injective _ _ _ _ e).2
    by_cases c2 : E.K (Eip712.preimage sep (E.K m1)) = E.K (Eip712.preimage sep (E.K m2))
    · exact Or.inl ⟨hp, c2⟩
    · right
      refine ⟨_, _, ?_, r1, r2⟩
      rw [d1, d1]
      exact c2

/-! ## A concrete permit token -/

section Examples
/-- A toy hash, and a precompile under which `(r, s) = (hash, 1)` is a signature by account 5. -/
private def K0 : Hash := fun l => BitVec.ofNat 256 (l.foldl (fun a b => a * 257 + b.toNat + 1) 7)
private def P0 : Ecdsa.Precompile := fun data =>
  if data.take 32 = (data.drop 64).take 32 then some (abiAddress 5#160) else some []
private def E0 : Env := ⟨K0, P0, ⟨ascii "ERC-20 Permit Example", ascii "1", 1#256, 9#160⟩⟩
private def sig : B256 := digest E0 5#160 6#160 100#256 0#256 50#256
private def st0 : State := run E0 (init 10#64) [.token 5#160 (.mint 5#160 70#256)]

private def isOk (x : Except Err State) (k : State → Bool) : Bool :=
  match x with | .ok s => k s | .error _ => false
private def isErr (x : Except Err State) (e : Err) : Bool :=
  match x with | .ok _ => false | .error e' => decide (e' = e)

example : isOk (permit E0 st0 5#160 6#160 100#256 50#256 27#8 sig 1#256) (fun s =>
    Erc20.allowance s.erc20 5#160 6#160 == 100#256 && nonce s 5#160 == 1 &&
    -- the very same call again is refused (this toy precompile answers nothing, so it panics)
    isErr (permit E0 s 5#160 6#160 100#256 50#256 27#8 sig 1#256) (.ecdsa .panic)) = true := by
  decide +kernel
-- another value, another spender, another signer
example : isErr (permit E0 st0 5#160 6#160 101#256 50#256 27#8 sig 1#256) (.ecdsa .panic) = true := by
  decide +kernel
example : isErr (permit E0 st0 7#160 6#160 100#256 50#256 27#8
    (digest E0 7#160 6#160 100#256 0#256 50#256) 1#256) (.invalidSigner 5#160 7#160) = true := by
  decide +kernel
-- too late
example : isErr (permit E0 { st0 with now := 51#64 } 5#160 6#160 100#256 50#256 27#8 sig 1#256)
    (.expiredSignature 50#256) = true := by decide +kernel
end Examples

end Verif.Props.Permit
