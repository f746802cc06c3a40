import Verif.Proofs.Erc20
/-! # What calls by others can do to an account that granted no allowance -/

namespace Verif.Erc20

/-- An account that granted no allowance keeps none granted and loses nothing through calls by others. -/
theorem exec_foreign {s t : State} {c me : Address} {k : Call} (hs : SumOk s)
    (hna : ∀ sp, s.allowances me sp = 0#256) (hc : ¬ c = me) (ht : exec s (c, k) = .ok t) :
    (∀ sp, t.allowances me sp = 0#256) ∧ (s.balances me).toNat ≤ (t.balances me).toNat := by
  -- spending from the vault's account is impossible: its allowances are zero
  have spend : ∀ {src : Address} {v : U256} {t1 : State},
      spendAllowance s src c v = .ok t1 →
      (∀ sp, t1.allowances me sp = 0#256) ∧ (src = me → v.toNat = 0) := by
    intro src v t1 hsp
    rcases spend_eq_ok.mp hsp with ⟨hm, rfl⟩ | ⟨_, hle, _, _, rfl⟩
    · refine ⟨hna, ?_⟩
      rintro rfl
      rw [hna] at hm
      exact absurd hm (by decide)
    · have hz : src = me → v.toNat = 0 := by
        rintro rfl
        rw [hna] at hle
        simpa using hle
      refine ⟨fun sp => ?_, hz⟩
      simp only [upd2]
      split
      · rename_i hh
        have hv := hz hh.1.symm
        have hv0 : v = 0#256 := BitVec.eq_of_toNat_eq hv
        rw [← hh.1, hna, hv0]; rfl
      · exact hna sp
  cases k with
  | transfer dst v =>
    obtain ⟨_, _, hu⟩ := transferInternal_eq_ok.mp ht
    have e := update_effect hs hu
    have hb := e.bal me
    rw [if_neg (fun e' => hc e'.1.symm)] at hb
    exact ⟨fun sp => by rw [e.allow]; exact hna sp, by omega⟩
  | transferFrom src dst v =>
    obtain ⟨t1, hs1, ht1⟩ := transferFrom_eq_ok.mp ht
    obtain ⟨hb1, hsup, _⟩ := spend_frame hs1
    obtain ⟨_, _, hu⟩ := transferInternal_eq_ok.mp ht1
    have e := update_effect (hs.of_frame hb1 hsup) hu
    obtain ⟨g1, g2⟩ := spend hs1
    have hb := e.bal me
    rw [hb1] at hb
    refine ⟨fun sp => by rw [e.allow]; exact g1 sp, ?_⟩
    by_cases hsrc : src = me
    · have := g2 hsrc
      rw [this] at hb
      simp only [ite_self, Nat.add_zero] at hb
      omega
    · rw [if_neg (fun e' => hsrc e'.1.symm)] at hb
      omega
  | approve sp v =>
    obtain ⟨_, _, rfl⟩ := approve_eq_ok.mp ht
    refine ⟨fun sp' => ?_, le_refl _⟩
    simp only [upd2]
    rw [if_neg (fun e' => hc e'.1.symm)]
    exact hna sp'
  | mint a v =>
    obtain ⟨_, hu⟩ := mint_eq_ok.mp ht
    have e := update_effect hs hu
    have hb := e.bal me
    simp only [ne_eq, not_true_eq_false, and_false, if_false, Nat.add_zero] at hb
    exact ⟨fun sp => by rw [e.allow]; exact hna sp, by omega⟩
  | burn v =>
    obtain ⟨_, hu⟩ := burnInternal_eq_ok.mp ht
    have e := update_effect hs hu
    have hb := e.bal me
    rw [if_neg (fun e' => hc e'.1.symm)] at hb
    exact ⟨fun sp => by rw [e.allow]; exact hna sp, by omega⟩
  | burnFrom src v =>
    obtain ⟨t1, hs1, ht1⟩ := burnFrom_eq_ok.mp ht
    obtain ⟨hb1, hsup, _⟩ := spend_frame hs1
    obtain ⟨_, hu⟩ := burnInternal_eq_ok.mp ht1
    have e := update_effect (hs.of_frame hb1 hsup) hu
    obtain ⟨g1, g2⟩ := spend hs1
    have hb := e.bal me
    rw [hb1] at hb
    refine ⟨fun sp => by rw [e.allow]; exact g1 sp, ?_⟩
    by_cases hsrc : src = me
    · have := g2 hsrc
      rw [this] at hb
      simp only [ite_self, Nat.add_zero] at hb
      omega
    · rw [if_neg (fun e' => hsrc e'.1.symm)] at hb
      omega

end Verif.Erc20
