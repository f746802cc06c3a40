import Verif.Base
/-! # Transactions that call out and are re-entered

When a contract calls another contract, the callee may call back, any number of times and to any depth,
before the first call continues.  A `CallTree` is one call together with everything that happens to the
contract while its own outgoing call is running.  The sub-calls are an arbitrary list, so a statement
about all trees is a statement about all behaviours of the called contracts, whatever they read and
however they decide.

This models the execution environment: Stylus with the `reentrant` feature, `contracts/Cargo.toml` 30
(`stylus-sdk/reentrant`), which `examples/erc20-flash-mint/Cargo.toml` 10 turns on. -/

namespace Verif

/-- A call, and the calls made to the same contract while the call's own outgoing call is running.
The environment of `contracts/Cargo.toml` 30. -/
inductive CallTree (ι : Type) where
  | mk (tx : ι) (inside : List (CallTree ι))

namespace CallTree
variable {σ ι ε : Type}

/-! `execWith inside s tx` is the contract: it executes `tx` in state `s`, and `inside` is what an
outgoing call, if one is made, does to the contract's state. -/

mutual
/-- Execute one call, nested calls included.  A failed call leaves no trace of itself or of the calls
inside it.  The environment of `contracts/Cargo.toml` 30. -/
def exec (execWith : (σ → σ) → σ → ι → Except ε σ) (s : σ) : CallTree ι → Except ε σ
  | .mk tx inside => execWith (fun t => execAll execWith t inside) s tx

/-- Execute calls one after another; failed ones leave no trace.  The environment of
`contracts/Cargo.toml` 30. -/
def execAll (execWith : (σ → σ) → σ → ι → Except ε σ) (s : σ) : List (CallTree ι) → σ
  | [] => s
  | a :: as => execAll execWith (match exec execWith s a with | .ok s' => s' | .error _ => s) as
end

mutual
/-- All calls of a tree, each before those inside it. -/
def calls : CallTree ι → List ι
  | .mk tx inside => tx :: callsAll inside

/-- All calls of a list of trees. -/
def callsAll : List (CallTree ι) → List ι
  | [] => []
  | a :: as => calls a ++ callsAll as
end

end CallTree

/-- The history `txs` runs from `s` without a single failure. -/
def AllSucceed {σ ι ε : Type} (exec : σ → ι → Except ε σ) (s : σ) (txs : List ι) : Prop :=
  ∀ pre tx post, txs = pre ++ tx :: post → ∃ s', exec (runOf exec s pre) tx = .ok s'

theorem allSucceed_nil {σ ι ε : Type} (exec : σ → ι → Except ε σ) (s : σ) : AllSucceed exec s [] := by
  intro pre tx post h
  cases pre <;> cases h

theorem allSucceed_cons {σ ι ε : Type} {exec : σ → ι → Except ε σ} {s s' : σ} {tx : ι} {txs : List ι}
    (h : exec s tx = .ok s') (hr : AllSucceed exec s' txs) : AllSucceed exec s (tx :: txs) := by
  intro pre t post e
  cases pre with
  | nil =>
    injection e with e1 e2
    exact ⟨s', e1 ▸ h⟩
  | cons p pre =>
    injection e with e1 e2
    subst e1
    obtain ⟨s2, h2⟩ := hr pre t post e2
    exact ⟨s2, by rw [runOf_cons, stepOf_ok h]; exact h2⟩

theorem allSucceed_append {σ ι ε : Type} {exec : σ → ι → Except ε σ} {xs ys : List ι} :
    ∀ {s : σ}, AllSucceed exec s xs → AllSucceed exec (runOf exec s xs) ys →
      AllSucceed exec s (xs ++ ys) := by
  induction xs with
  | nil => intro s _ h; exact h
  | cons x xs ih =>
    intro s h1 h2
    obtain ⟨s1, e1⟩ := h1 [] x xs rfl
    have e1 : exec s x = .ok s1 := e1
    apply allSucceed_cons e1
    apply ih
    · intro pre tx post e
      obtain ⟨s2, h⟩ := h1 (x :: pre) tx post (by rw [e]; rfl)
      rw [runOf_cons, stepOf_ok e1] at h
      exact ⟨s2, h⟩
    · rwa [runOf_cons, stepOf_ok e1] at h2

namespace CallTree
variable {σ ι ε : Type}

/-- Re-entrancy adds nothing to a contract whose outgoing calls come last: if executing a call with an
outgoing call that does `inside` to the state amounts to executing the call and then perhaps `inside`,
then every tree of calls ends where some plain history of its own calls ends: a sublist of them, in
their order, all of them successful. -/
theorem linearises (execWith : (σ → σ) → σ → ι → Except ε σ) (plain : σ → ι → Except ε σ)
    (H : ∀ inside s tx s', execWith inside s tx = .ok s' →
      ∃ s1, plain s tx = .ok s1 ∧ (s' = inside s1 ∨ s' = s1)) :
    (∀ (a : CallTree ι) (s s' : σ), exec execWith s a = .ok s' →
      ∃ txs, txs.Sublist (calls a) ∧ AllSucceed plain s txs ∧ runOf plain s txs = s') ∧
    (∀ (as : List (CallTree ι)) (s : σ),
      ∃ txs, txs.Sublist (callsAll as) ∧ AllSucceed plain s txs ∧
        runOf plain s txs = execAll execWith s as) := by
  have key : ∀ (tx : ι) (inside : List (CallTree ι)),
      (∀ s : σ, ∃ txs, txs.Sublist (callsAll inside) ∧ AllSucceed plain s txs ∧
        runOf plain s txs = execAll execWith s inside) →
      ∀ s s' : σ, exec execWith s (.mk tx inside) = .ok s' →
        ∃ txs, txs.Sublist (calls (.mk tx inside)) ∧ AllSucceed plain s txs ∧
          runOf plain s txs = s' := by
    intro tx inside ih s s' h
    rw [exec] at h
    obtain ⟨s1, h1, h2⟩ := H _ _ _ _ h
    rcases h2 with h2 | h2
    · obtain ⟨txs, hs, ha, hr⟩ := ih s1
      refine ⟨tx :: txs, ?_, allSucceed_cons h1 ha, ?_⟩
      · rw [calls]; exact hs.cons_cons tx
      · rw [runOf_cons, stepOf_ok h1, hr, h2]
    · refine ⟨[tx], ?_, allSucceed_cons h1 (allSucceed_nil _ _), ?_⟩
      · rw [calls]; exact (List.nil_sublist _).cons_cons tx
      · rw [runOf_cons, stepOf_ok h1, h2]; rfl
  have keys : ∀ (a : CallTree ι) (as : List (CallTree ι)),
      (∀ s s' : σ, exec execWith s a = .ok s' →
        ∃ txs, txs.Sublist (calls a) ∧ AllSucceed plain s txs ∧ runOf plain s txs = s') →
      (∀ s : σ, ∃ txs, txs.Sublist (callsAll as) ∧ AllSucceed plain s txs ∧
        runOf plain s txs = execAll execWith s as) →
      ∀ s : σ, ∃ txs, txs.Sublist (callsAll (a :: as)) ∧ AllSucceed plain s txs ∧
        runOf plain s txs = execAll execWith s (a :: as) := by
    intro a as iha ihs s
    rw [execAll, callsAll]
    cases hx : exec execWith s a with
    | ok s1 =>
      obtain ⟨t1, h1, h2, h3⟩ := iha s s1 hx
      obtain ⟨t2, h4, h5, h6⟩ := ihs s1
      refine ⟨t1 ++ t2, h1.append h4, allSucceed_append h2 (h3 ▸ h5), ?_⟩
      rw [runOf_append, h3, h6]
    | error e =>
      obtain ⟨t2, h4, h5, h6⟩ := ihs s
      exact ⟨t2, h4.trans (List.sublist_append_right _ _), h5, h6⟩
  refine ⟨fun a => ?_, fun as => ?_⟩
  · exact CallTree.rec
      (motive_1 := fun a => ∀ s s' : σ, exec execWith s a = .ok s' →
        ∃ txs, txs.Sublist (calls a) ∧ AllSucceed plain s txs ∧ runOf plain s txs = s')
      (motive_2 := fun as => ∀ s : σ, ∃ txs, txs.Sublist (callsAll as) ∧ AllSucceed plain s txs ∧
        runOf plain s txs = execAll execWith s as)
      key (fun s => ⟨[], by rw [callsAll], allSucceed_nil _ _, by rw [execAll]; rfl⟩) keys a
  · exact CallTree.rec_1
      (motive_1 := fun a => ∀ s s' : σ, exec execWith s a = .ok s' →
        ∃ txs, txs.Sublist (calls a) ∧ AllSucceed plain s txs ∧ runOf plain s txs = s')
      (motive_2 := fun as => ∀ s : σ, ∃ txs, txs.Sublist (callsAll as) ∧ AllSucceed plain s txs ∧
        runOf plain s txs = execAll execWith s as)
      key (fun s => ⟨[], by rw [callsAll], allSucceed_nil _ _, by rw [execAll]; rfl⟩) keys as

end CallTree
end Verif
