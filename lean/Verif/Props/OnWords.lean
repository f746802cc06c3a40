import Verif.Spec.GatesDeployed
import Verif.Spec.Deployed
import Verif.Proofs.Contracts
/-! # Lemmas: messages to contracts on storage words -/

namespace Verif.Props.OnWords
open Verif Verif.Storage Verif.Spec.OnWords
open Verif.Abi (Val Decoder Outcome)
open Verif.Spec.Keccak (keccak256)
open Verif.Spec.Contracts (Raw after message values)

theorem arguments_message {D : Decoder} {e : Spec.Router.Entry} (he : e ∈ Spec.Router.contracts) {T : Type} {env : T} {value : U256}
    {sg t : String} {f : Router.Fn} {args args' : List Val} (hs : sg ∈ e.abi.map Prod.fst)
    (hr : Props.Router.routeSig e.contract sg = some (t, f)) (ht : args.map Val.type = Abi.flat f.args)
    (hl : (message sg args).length < 2 ^ 256) (h : Arguments keccak256 D e.contract ⟨env, value, message sg args⟩ args') :
    args' = args := by
  obtain ⟨⟨_, t', n⟩, hm, rfl⟩ := List.mem_map.mp hs
  obtain ⟨t1, f1, h1, h2⟩ := h
  dsimp only at h1 h2
  unfold message at *
  rw [← Proofs.Contracts.encode_values] at *
  rw [← Proofs.Entry.be4_selector] at h1 h2 hl
  rw [Proofs.Entry.selectorOf_be4, Props.Router.route_selector he (Props.Router.rows_ok _ he _ hm).1, hr] at h1
  cases h1
  rw [List.length_append] at hl
  rw [List.drop_left' (Proofs.Entry.be4_length _), ← ht, D.complete args (by omega)] at h2
  exact (Option.some.inj h2).symm

theorem reply_of_answer {σ τ : Type} {o : Outcome σ} {o' : Outcome τ} (h : Spec.Deployed.answer o = Spec.Deployed.answer o') :
    o.reply = o'.reply := by
  cases o <;> cases o' <;> simp_all [Spec.Deployed.answer, Outcome.reply]

theorem forall_append {α : Type} {p : α → Prop} {l : List α} {x : α} (h : ∀ y ∈ l, p y) (hx : p x) : ∀ y ∈ l ++ [x], p y := by
  intro y hy
  rcases List.mem_append.mp hy with hy | hy
  · exact h y hy
  · rw [List.mem_singleton.mp hy]; exact hx

end Verif.Props.OnWords
