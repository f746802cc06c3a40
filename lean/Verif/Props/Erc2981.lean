import Verif.Spec.Erc2981
/-! # C44: ERC-2981 royalties -/

namespace Verif.Props.Erc2981
open Verif.Erc2981 Verif.Spec.Erc2981

/-- A stored record as an entry of the book. -/
private def view (r : RoyaltyInfo) : Option (Address × Nat) :=
  if r.receiver = ZERO then none else some (r.receiver, r.fraction.toNat)

private structure Ok (d : U96) (s : State) (b : Book) : Prop where
  den : s.denominator = d
  def_ : view s.default_ = b.default_
  tok : ∀ t, view (s.token t) = b.token t
  zero : s.default_.receiver = ZERO → s.default_.fraction = 0#96
  defLe : s.default_.fraction.toNat ≤ d.toNat
  tokLe : ∀ t, (s.token t).fraction.toNat ≤ d.toNat

private theorem ok_step {d : U96} {s : State} {b : Book} (h : Ok d s b) (c : Call) :
    Ok d (stepOf exec s c) (b.apply d.toNat c) := by
  cases c with
  | setDefault r n =>
    by_cases h1 : d.toNat < n.toNat
    · have hx : exec s (.setDefault r n) = .error (.invalidDefaultRoyalty (n.setWidth 256) (s.denominator.setWidth 256)) := by
        have : s.denominator < n := by rw [h.den]; exact BitVec.lt_def.mpr h1
        simp [exec, setDefaultRoyalty, this]
      rw [stepOf_error hx, Book.apply, if_neg (by unfold valid; omega)]
      exact h
    · have hlt : ¬ s.denominator < n := by rw [h.den]; exact mt BitVec.lt_def.mp h1
      by_cases h2 : r = ZERO
      · have hx : exec s (.setDefault r n) = .error (.invalidDefaultRoyaltyReceiver r) := by
          simp [exec, setDefaultRoyalty, hlt, h2]
        rw [stepOf_error hx, Book.apply, if_neg (by unfold valid; exact fun e => e.2 h2)]
        exact h
      · have hx : exec s (.setDefault r n) = .ok { s with default_ := ⟨r, n⟩ } := by
          simp [exec, setDefaultRoyalty, hlt, h2]
        rw [stepOf_ok hx, Book.apply, if_pos ⟨by omega, h2⟩]
        exact ⟨h.den, by simp [view, h2], h.tok, fun e => absurd e h2, by show n.toNat ≤ _; omega, h.tokLe⟩
  | deleteDefault =>
    exact ⟨h.den, by simp [stepOf, exec, deleteDefaultRoyalty, view, RoyaltyInfo.empty, Book.apply], h.tok,
      fun _ => rfl, Nat.zero_le _, h.tokLe⟩
  | setToken t r n =>
    by_cases h1 : d.toNat < n.toNat
    · have hx : exec s (.setToken t r n) = .error (.invalidTokenRoyalty t (n.setWidth 256) (s.denominator.setWidth 256)) := by
        have : s.denominator < n := by rw [h.den]; exact BitVec.lt_def.mpr h1
        simp [exec, setTokenRoyalty, this]
      rw [stepOf_error hx, Book.apply, if_neg (by unfold valid; omega)]
      exact h
    · have hlt : ¬ s.denominator < n := by rw [h.den]; exact mt BitVec.lt_def.mp h1
      by_cases h2 : r = ZERO
      · have hx : exec s (.setToken t r n) = .error (.invalidTokenRoyaltyReceiver t r) := by
          simp [exec, setTokenRoyalty, hlt, h2]
        rw [stepOf_error hx, Book.apply, if_neg (by unfold valid; exact fun e => e.2 h2)]
        exact h
      · have hx : exec s (.setToken t r n) = .ok { s with token := upd s.token t ⟨r, n⟩ } := by
          simp [exec, setTokenRoyalty, hlt, h2]
        rw [stepOf_ok hx, Book.apply, if_pos ⟨by omega, h2⟩]
        refine ⟨h.den, h.def_, fun i => ?_, h.zero, h.defLe, fun i => ?_⟩
        · simp only [upd_apply]
          split
          · simp [view, h2]
          · exact h.tok i
        · simp only [upd_apply]
          split
          · show n.toNat ≤ _; omega
          · exact h.tokLe i
  | resetToken t =>
    refine ⟨h.den, h.def_, fun i => ?_, h.zero, h.defLe, fun i => ?_⟩
    · simp only [stepOf, exec, resetTokenRoyalty, Book.apply, upd_apply]
      split
      · simp [view, RoyaltyInfo.empty]
      · exact h.tok i
    · simp only [stepOf, exec, resetTokenRoyalty, upd_apply]
      split
      · exact Nat.zero_le _
      · exact h.tokLe i

private theorem ok_run (d : U96) : ∀ (ops : List Call) (s : State) (b : Book), Ok d s b →
    Ok d (run s ops) (ops.foldl (Book.apply d.toNat) b) := by
  intro ops
  induction ops with
  | nil => intro s b h; exact h
  | cons c ops ih => intro s b h; exact ih _ _ (ok_step h c)

private theorem ok_init (d : U96) : Ok d (init d) .empty :=
  ⟨rfl, by simp [init, view, RoyaltyInfo.empty, Book.empty],
    fun _ => by simp [init, view, RoyaltyInfo.empty, Book.empty], fun _ => rfl, Nat.zero_le _,
    fun _ => Nat.zero_le _⟩

private theorem setWidth_toNat (x : U96) : (x.setWidth 256).toNat = x.toNat := by
  rw [BitVec.toNat_setWidth, Nat.mod_eq_of_lt]
  exact Nat.lt_trans x.isLt (by decide)

private theorem royalty_of {d : U96} {s : State} {b : Book} (h : Ok d s b) (hd : d ≠ 0#96)
    (t price : U256) :
    (price.toNat * (b.entry t).2 < 2 ^ 256 → ∃ a, royaltyInfo s t price = .ok ((b.entry t).1, a) ∧
      a.toNat = price.toNat * (b.entry t).2 / d.toNat) ∧
    (2 ^ 256 ≤ price.toNat * (b.entry t).2 → royaltyInfo s t price = .error .panic) := by
  have hentry : b.entry t = ((if (s.token t).receiver = ZERO then s.default_ else s.token t).receiver,
      (if (s.token t).receiver = ZERO then s.default_ else s.token t).fraction.toNat) := by
    unfold Book.entry
    rw [← h.tok t, ← h.def_]
    unfold view
    by_cases h1 : (s.token t).receiver = ZERO
    · by_cases h2 : s.default_.receiver = ZERO
      · simp [h1, h2, h.zero h2]
      · simp [h1, h2]
    · simp [h1]
  rw [hentry]
  unfold royaltyInfo
  dsimp only
  generalize (if (s.token t).receiver = ZERO then s.default_ else s.token t) = info
  have hden : ¬ s.denominator.setWidth 256 = 0#256 := by
    rw [h.den]
    intro e
    apply hd
    apply BitVec.eq_of_toNat_eq
    have := congrArg BitVec.toNat e
    rw [setWidth_toNat] at this
    exact this
  constructor
  · intro hlt
    have hm : checkedMul price (info.fraction.setWidth 256) = some (price * info.fraction.setWidth 256) := by
      unfold checkedMul; rw [if_pos (by rw [setWidth_toNat]; exact hlt)]
    refine ⟨price * info.fraction.setWidth 256 / s.denominator.setWidth 256, ?_, ?_⟩
    · simp [hm, hden]
    · rw [BitVec.toNat_udiv, setWidth_toNat, h.den, (checkedMul_eq_some.mp hm).2, setWidth_toNat]
  · intro hge
    have hm : checkedMul price (info.fraction.setWidth 256) = none :=
      checkedMul_eq_none.mpr (by rw [setWidth_toNat]; exact hge)
    simp [hm]

/-- **C44** After every history of settings, `royalty_info` returns the receiver of the token's entry, or
else of the default, and `⌊price * fraction / denominator⌋`, computed exactly; it fails exactly when the
product does not fit a word. -/
theorem C44_royalty_exact (d : U96) (hd : d ≠ 0#96) (ops : List Call) (t price : U256) :
    (price.toNat * ((book d.toNat ops).entry t).2 < 2 ^ 256 →
      ∃ a, royaltyInfo (run (init d) ops) t price = .ok (((book d.toNat ops).entry t).1, a) ∧
        a.toNat = price.toNat * ((book d.toNat ops).entry t).2 / d.toNat) ∧
    (2 ^ 256 ≤ price.toNat * ((book d.toNat ops).entry t).2 →
      royaltyInfo (run (init d) ops) t price = .error .panic) :=
  royalty_of (ok_run d ops _ _ (ok_init d)) hd t price

/-- **C44** The royalty never exceeds the sale price. -/
theorem C44_at_most_price (d : U96) (ops : List Call) (t price : U256) (r : Address) (a : U256)
    (h : royaltyInfo (run (init d) ops) t price = .ok (r, a)) : a.toNat ≤ price.toNat := by
  have hk := ok_run d ops _ _ (ok_init d)
  by_cases hd : d = 0#96
  · exfalso
    unfold royaltyInfo at h
    dsimp only at h
    have : (run (init d) ops).denominator.setWidth 256 = 0#256 := by rw [hk.den, hd]; rfl
    rw [this] at h
    simp only [bind_eq_ok] at h
    obtain ⟨_, _, _, h2, _⟩ := h
    simp at h2
  · have hle : ((book d.toNat ops).entry t).2 ≤ d.toNat := by
      unfold Book.entry book
      rw [← hk.tok t, ← hk.def_]
      unfold view
      by_cases h1 : ((run (init d) ops).token t).receiver = ZERO
      · by_cases h2 : (run (init d) ops).default_.receiver = ZERO
        · simp [h1, h2]
        · simpa [h1, h2] using hk.defLe
      · simpa [h1] using hk.tokLe t
    obtain ⟨e1, e2⟩ := C44_royalty_exact d hd ops t price
    by_cases hlt : price.toNat * ((book d.toNat ops).entry t).2 < 2 ^ 256
    · obtain ⟨a', h1, h2⟩ := e1 hlt
      rw [h] at h1
      injection h1 with h1
      injection h1 with _ h1
      rw [h1, h2]
      calc price.toNat * ((book d.toNat ops).entry t).2 / d.toNat
          ≤ price.toNat * d.toNat / d.toNat := Nat.div_le_div_right (Nat.mul_le_mul_left _ hle)
        _ = price.toNat := Nat.mul_div_cancel _ (by
            rcases Nat.eq_zero_or_pos d.toNat with h0 | h0
            · exact absurd (BitVec.eq_of_toNat_eq (by simpa using h0)) hd
            · exact h0)
    · rw [e2 (by omega)] at h; cases h

/-- **C44** The setters accept exactly the valid settings, and say why they refuse: a fraction above one
first, then a missing receiver. -/
theorem C44_setters (s : State) (t : U256) (r : Address) (n : U96) :
    ((∃ s', setDefaultRoyalty s r n = .ok s') ↔ valid s.denominator.toNat r n.toNat) ∧
    ((∃ s', setTokenRoyalty s t r n = .ok s') ↔ valid s.denominator.toNat r n.toNat) ∧
    (s.denominator.toNat < n.toNat →
      setDefaultRoyalty s r n = .error (.invalidDefaultRoyalty (n.setWidth 256) (s.denominator.setWidth 256)) ∧
      setTokenRoyalty s t r n = .error (.invalidTokenRoyalty t (n.setWidth 256) (s.denominator.setWidth 256))) ∧
    (n.toNat ≤ s.denominator.toNat → setDefaultRoyalty s ZERO n = .error (.invalidDefaultRoyaltyReceiver ZERO) ∧
      setTokenRoyalty s t ZERO n = .error (.invalidTokenRoyaltyReceiver t ZERO)) := by
  unfold valid setDefaultRoyalty setTokenRoyalty
  by_cases h1 : s.denominator < n
  · have h1' := BitVec.lt_def.mp h1
    have hn : ¬ n.toNat ≤ s.denominator.toNat := by omega
    simp [h1, h1', hn]
  · have h1' := mt BitVec.lt_def.mpr h1
    have hn : n.toNat ≤ s.denominator.toNat := by omega
    by_cases h2 : r = ZERO <;> simp [h1, h1', hn, h2]

section Examples
private def ops0 : List Call := [.setDefault 1#160 500#96, .setToken 7#256 2#160 1000#96,
  .setDefault 3#160 10001#96, .setToken 8#256 ZERO 1#96, .setToken 9#256 2#160 1000#96, .resetToken 9#256]
example : (book 10000 ops0).entry 7#256 = (2#160, 1000) := by decide +kernel
example : (book 10000 ops0).entry 8#256 = (1#160, 500) := by decide +kernel
example : (book 10000 ops0).entry 9#256 = (1#160, 500) := by decide +kernel
example : royaltyInfo (run (init 10000#96) ops0) 7#256 999#256 = .ok (2#160, 99#256) := by decide +kernel
end Examples

end Verif.Props.Erc2981
