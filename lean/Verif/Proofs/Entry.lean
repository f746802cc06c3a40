import Verif.Model.Entry
import Verif.Proofs.Abi
import Verif.Props.Router
import Verif.Props.Revert
import Verif.Spec.Calls
/-!
# The entry point on canonical and on arbitrary calldata
-/
namespace Verif.Proofs.Entry
open Verif Verif.Abi Verif.Proofs.Abi
open Verif.Interfaces (SolType)
open Verif.Router (Fn Contract)
open Verif.Spec.Keccak (keccak256)
open Verif.Spec.Router (contracts selector)
open Verif.Spec.Calls (call sel)
open Verif.Props.Router (routeSig table sig)
open Verif.Revert (be4)

theorem be4_selector (s : String) : be4 (selector s) = sel s := by
  unfold selector sel
  rw [Props.Revert.be4_word]

theorem be4_length (x : BitVec 32) : (be4 x).length = 4 := by simp [be4]

theorem foldl_be4 (x : BitVec 32) : (be4 x).foldl (fun n y => 256 * n + y.toNat) 0 = x.toNat := by
  have h : be4 x = [x.extractLsb' 24 8, x.extractLsb' 16 8, x.extractLsb' 8 8, x.extractLsb' 0 8] := rfl
  rw [h]
  simp only [List.foldl_cons, List.foldl_nil, BitVec.extractLsb'_toNat, Nat.shiftRight_eq_div_pow]
  have := x.isLt
  omega

theorem selectorOf_be4 (x : BitVec 32) (rest : Bytes) : selectorOf (be4 x ++ rest) = x := by
  unfold selectorOf
  rw [List.take_left' (be4_length x), foldl_be4]
  exact BitVec.ofNat_toNat 32 x |>.trans (BitVec.setWidth_eq x)

theorem be4_selectorOf {input : Bytes} (h : 4 ≤ input.length) : be4 (selectorOf input) = input.take 4 := by
  have hl : (input.take 4).length = 4 := by rw [List.length_take]; omega
  refine foldl_inj _ _ (by rw [be4_length, hl]) ?_
  rw [foldl_be4]
  unfold selectorOf
  rw [BitVec.toNat_ofNat, Nat.mod_eq_of_lt]
  have := foldl_lt (input.take 4)
  rw [hl] at this
  exact lt_of_lt_of_le this (by norm_num)

/-- The encoding of single words. -/
theorem encode_static : ∀ {vs : List Val} {ws : List U256}, vs.map Val.code = ws.map .inl →
    encode vs = ws.flatMap Spec.Revert.word := by
  have key : ∀ (vs : List Val) (ws : List U256) (off : Nat), vs.map Val.code = ws.map .inl →
      headsTails off vs = (ws.flatMap Spec.Revert.word, []) := by
    intro vs
    induction vs with
    | nil =>
      intro ws off h
      cases ws with
      | nil => rfl
      | cons w ws => simp at h
    | cons v vs ih =>
      intro ws off h
      cases ws with
      | nil => simp at h
      | cons w ws =>
        rw [List.map_cons, List.map_cons, List.cons.injEq] at h
        rw [static_cons h.1, ih ws off h.2, Props.Revert.be32_word]
        rfl
  intro vs ws h
  unfold encode
  rw [key vs ws _ h, List.append_nil]

theorem flatMap_word_length (ws : List U256) : (ws.flatMap Spec.Revert.word).length = 32 * ws.length := by
  induction ws with
  | nil => rfl
  | cons w ws ih =>
    rw [List.flatMap_cons, List.length_append, ih, List.length_cons]
    simp [Spec.Revert.word]; omega

theorem address_code (a : Address) : (Val.address a).code = .inl (Spec.Revert.addr a) := by
  show Sum.inl _ = _
  congr 1
  unfold Spec.Revert.addr
  apply BitVec.eq_of_toNat_eq
  rw [BitVec.toNat_setWidth, BitVec.toNat_ofNat]

/-- A call with the signature of an exported function and arguments of its types runs the function. -/
theorem entry_call {σ : Type} {c : Spec.Router.Entry} (hc : c ∈ contracts) (D : Decoder) (h : Handler σ) (s : σ)
    {sg t : String} {f : Fn} (hs : sg ∈ table.map Prod.fst) (hr : routeSig c.contract sg = some (t, f))
    {args : List Val} (ht : args.map Val.type = flat f.args) (hl : (encode args).length < 2 ^ 256) :
    entry keccak256 D c.contract h s 0#256 (sel sg ++ encode args) =
      outcome (h t f.rustName args s) := by
  have h4 : ¬ (sel sg ++ encode args).length < 4 := by
    rw [← be4_selector, List.length_append, be4_length]; omega
  unfold entry
  rw [if_neg (by simp), if_neg h4, ← be4_selector, selectorOf_be4, Props.Router.route_selector hc hs, hr]
  simp only
  rw [List.drop_left' (be4_length _), ← ht, D.complete args hl]

/-- What a successful call has done. -/
theorem entry_returned {σ : Type} {c : Spec.Router.Entry} (hc : c ∈ contracts) {D : Decoder} {h : Handler σ} {s s' : σ}
    {value : U256} {input data : Bytes} (hx : entry keccak256 D c.contract h s value input = .returned s' data) :
    value = 0#256 ∧ ∃ sg t n args r, (sg, t, n) ∈ c.abi ∧ h t n args s = .ok (s', r) ∧ data = encode r ∧
      ((∀ v ∈ args, v.isStatic) → sel sg ++ encode args <+: input) := by
  unfold entry at hx
  split at hx
  · cases hx
  · rename_i hv
    split at hx
    · cases hx
    · rename_i h4
      cases hr : c.contract.route keccak256 (selectorOf input) with
      | none => rw [hr] at hx; cases hx
      | some p =>
        obtain ⟨t, f⟩ := p
        rw [hr] at hx
        simp only at hx
        obtain ⟨sg, hsg, hsel⟩ := (Props.Router.C97_abi hc (selectorOf input) t f.rustName).mp ⟨f, hr, rfl⟩
        cases hd : D.read (flat f.args) (input.drop 4) with
        | none => rw [hd] at hx; cases hx
        | some args =>
          rw [hd] at hx
          simp only at hx
          cases hh : h t f.rustName args s with
          | error e => rw [hh] at hx; cases hx
          | ok p =>
            obtain ⟨s1, r⟩ := p
            rw [hh] at hx
            simp only [outcome, Outcome.returned.injEq] at hx
            obtain ⟨rfl, rfl⟩ := hx
            refine ⟨by simpa using hv, sg, t, f.rustName, args, r, hsg, hh, rfl, fun hst => ?_⟩
            obtain ⟨tl, htl⟩ := D.static _ _ _ hd hst
            refine ⟨tl, ?_⟩
            have h4' : 4 ≤ input.length := by omega
            rw [← be4_selector, ← hsel, be4_selectorOf h4', List.append_assoc, htl, List.take_append_drop]

/-- A call with value, or whose first four bytes are the selector of no function, reverts without data. -/
theorem entry_refused {σ : Type} {c : Spec.Router.Entry} (hc : c ∈ contracts) (D : Decoder) (h : Handler σ) (s : σ)
    (value : U256) (input : Bytes) (hx : value ≠ 0#256 ∨ ∀ r ∈ c.abi, ¬ sel r.1 <+: input) :
    entry keccak256 D c.contract h s value input = .reverted [] := by
  unfold entry
  split
  · rfl
  · rename_i hv
    rcases hx with hx | hx
    · exact absurd hx hv
    · split
      · rfl
      · rename_i h4
        cases hr : c.contract.route keccak256 (selectorOf input) with
        | none => rfl
        | some p =>
          obtain ⟨t, f⟩ := p
          obtain ⟨sg, hsg, hsel⟩ := (Props.Router.C97_abi hc (selectorOf input) t f.rustName).mp ⟨f, hr, rfl⟩
          refine absurd ?_ (hx _ hsg)
          show sel sg <+: input
          rw [← be4_selector, ← hsel, be4_selectorOf (by omega)]
          exact List.take_prefix _ _

end Verif.Proofs.Entry
