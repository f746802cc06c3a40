import Verif.Base
/-! # Calls to a token that calls back, before or after it moves the balance

A contract that tells another token to move a balance may be re-entered during that call, before the
token has moved the balance or after.  A `HookTree` is one call together with everything that happens
to the contract at these two moments.  The lists are arbitrary, so a statement about all trees is a
statement about all behaviours of whoever is called.

This models the execution environment: Stylus with the `reentrant` feature, `contracts/Cargo.toml` 30. -/

namespace Verif

/-- A call, and the calls made to the same contract during its outgoing call: those before the moved
balance has changed and those after.  The environment of `contracts/Cargo.toml` 30. -/
inductive HookTree (ι : Type) where
  | mk (op : ι) (before after : List (HookTree ι))

namespace HookTree
variable {σ ι ε : Type}

/-! `execWith before after s op` is the contract: it executes `op` in state `s`; `before` and `after` are
what happens to the contract's state during its outgoing call. -/

mutual
/-- Execute one call, nested calls included; a failed one leaves no trace.  The environment of
`contracts/Cargo.toml` 30. -/
def exec (execWith : (σ → σ) → (σ → σ) → σ → ι → Except ε σ) (s : σ) : HookTree ι → Except ε σ
  | .mk op before after =>
    execWith (fun t => execAll execWith t before) (fun t => execAll execWith t after) s op

/-- Execute calls one after another; failed ones leave no trace.  The environment of
`contracts/Cargo.toml` 30. -/
def execAll (execWith : (σ → σ) → (σ → σ) → σ → ι → Except ε σ) (s : σ) : List (HookTree ι) → σ
  | [] => s
  | a :: as => execAll execWith (match exec execWith s a with | .ok s' => s' | .error _ => s) as
end

mutual
/-- All calls of a tree, whenever they happen. -/
def calls : HookTree ι → List ι
  | .mk op before after => op :: (callsAll before ++ callsAll after)

/-- All calls of a list of trees. -/
def callsAll : List (HookTree ι) → List ι
  | [] => []
  | a :: as => calls a ++ callsAll as
end

/-- What every call with property `P` does, given that whatever happens inside it does the same, every
history of nested calls with that property does. -/
theorem relateIf (execWith : (σ → σ) → (σ → σ) → σ → ι → Except ε σ) (R : σ → σ → Prop) (P : ι → Prop)
    (refl : ∀ s, R s s) (trans : ∀ a b c, R a b → R b c → R a c)
    (step : ∀ before after s op s', P op → (∀ t, R t (before t)) → (∀ t, R t (after t)) →
      execWith before after s op = .ok s' → R s s')
    (as : List (HookTree ι)) (s : σ) : (∀ op ∈ callsAll as, P op) → R s (execAll execWith s as) := by
  have hcons : ∀ (a : HookTree ι) (as : List (HookTree ι)),
      ((∀ op ∈ calls a, P op) → ∀ s s', exec execWith s a = .ok s' → R s s') →
      ((∀ op ∈ callsAll as, P op) → ∀ s, R s (execAll execWith s as)) →
      (∀ op ∈ callsAll (a :: as), P op) → ∀ s, R s (execAll execWith s (a :: as)) := by
    intro a as iha ihs hP s
    rw [callsAll] at hP
    rw [execAll]
    have ha := iha fun op h => hP op (List.mem_append_left _ h)
    have hs := ihs fun op h => hP op (List.mem_append_right _ h)
    cases hx : exec execWith s a with
    | ok s1 => exact trans _ _ _ (ha s s1 hx) (hs s1)
    | error e => exact hs s
  intro hP
  exact HookTree.rec_1
    (motive_1 := fun a => (∀ op ∈ calls a, P op) → ∀ s s', exec execWith s a = .ok s' → R s s')
    (motive_2 := fun as => (∀ op ∈ callsAll as, P op) → ∀ s, R s (execAll execWith s as))
    (fun op before after ihb iha hP s s' h => by
      rw [exec] at h
      rw [calls] at hP
      exact step _ _ s op s' (hP op List.mem_cons_self)
        (ihb fun op h => hP op (List.mem_cons_of_mem _ (List.mem_append_left _ h)))
        (iha fun op h => hP op (List.mem_cons_of_mem _ (List.mem_append_right _ h))) h)
    (fun _ s => by rw [execAll]; exact refl s) hcons as hP s

/-- What every call does, given that whatever happens inside it does the same, every history of nested
calls does. -/
theorem relate (execWith : (σ → σ) → (σ → σ) → σ → ι → Except ε σ) (R : σ → σ → Prop)
    (refl : ∀ s, R s s) (trans : ∀ a b c, R a b → R b c → R a c)
    (step : ∀ before after s op s', (∀ t, R t (before t)) → (∀ t, R t (after t)) →
      execWith before after s op = .ok s' → R s s')
    (as : List (HookTree ι)) (s : σ) : R s (execAll execWith s as) :=
  relateIf execWith R (fun _ => True) refl trans (fun b a s op s' _ => step b a s op s') as s
    fun _ _ => trivial

end HookTree
end Verif
