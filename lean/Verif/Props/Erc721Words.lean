import Verif.Proofs.Erc721Words
import Verif.Proofs.Separate
import Verif.Proofs.KeccakFast
/-! # C113: the ERC-721 token on the words of its storage -/

namespace Verif.Props.Erc721Words
open Verif Verif.Storage Verif.Spec.Storage Verif.Spec.StoragePrograms Verif.Spec.Erc721Words
open Verif.Erc721 (Err Event UserCall)
open Verif.Proofs.Erc721Words (inv_step inv_run inv_fresh inv_shows Inv exec_owners)

section
variable {K : Hash} {n : Nat} {t : Ty} {root : List Step} {S : List Address} {T : List U256} {txs : List Erc721.Tx}

theorem inv_after (h : Setting K n t root S T txs) :
    Inv K t root S T (after K t root txs) (Erc721.run Erc721.init txs) := by
  obtain ⟨b, d, hr⟩ := h.place
  exact inv_run h.bound h.sound hr h.zero h.separate txs (inv_fresh h.zero) h.names

/-- **C113** After every history, the words show the owners, balances, approvals, operators and events of the token whose maps
are independent. -/
theorem C113_shows (h : Setting K n t root S T txs) :
    Shows K t root S T (after K t root txs) (Erc721.run Erc721.init txs) := by
  obtain ⟨b, d, hr⟩ := h.place
  exact inv_shows hr h.separate (inv_after h)

/-- **C113** After every history, a further transaction fails on the words exactly if it fails for the token whose maps are
independent, with the same error; if it succeeds, the words show its result. -/
theorem C113_step (h : Setting K n t root S T txs) (tx : Erc721.Tx) (hx : Names S T tx) :
    (∀ e, Erc721Words.exec root K t (after K t root txs) tx = .error e ↔ Erc721.exec (Erc721.run Erc721.init txs) tx = .error e) ∧
    ∀ w', Erc721Words.exec root K t (after K t root txs) tx = .ok w' →
      ∃ s', Erc721.exec (Erc721.run Erc721.init txs) tx = .ok s' ∧ Shows K t root S T w' s' := by
  obtain ⟨b, d, hr⟩ := h.place
  have h1 := inv_step h.bound h.sound hr h.zero h.separate (inv_after h) hx
  revert h1
  cases Erc721Words.exec root K t (after K t root txs) tx with
  | error e =>
    cases Erc721.exec (Erc721.run Erc721.init txs) tx with
    | error e' =>
      rintro rfl
      refine ⟨fun x => ⟨fun h => ?_, fun h => ?_⟩, fun _ h => by cases h⟩
      · cases h; rfl
      · cases h; rfl
    | ok s' => exact fun h => h.elim
  | ok w' =>
    cases Erc721.exec (Erc721.run Erc721.init txs) tx with
    | error e' => exact fun h => h.elim
    | ok s' =>
      intro hi
      refine ⟨fun e => ⟨fun h => (by cases h), fun h => by cases h⟩, fun v hv => ?_⟩
      cases hv
      exact ⟨s', rfl, inv_shows hr h.separate hi⟩

theorem wide_inj {a b : Address} : a.setWidth 256 = b.setWidth 256 ↔ a = b := by
  constructor
  · intro h
    have := congrArg (BitVec.setWidth 160) h
    simpa using this
  · rintro rfl; rfl

theorem owners_outside {id : U256} (hid : id ∉ T) : ∀ (txs : List Erc721.Tx) (s : Erc721.State) (_ : ∀ tx ∈ txs, Names S T tx),
    (Erc721.run s txs).owners id = s.owners id
  | [], _, _ => rfl
  | tx :: txs, s, hx => by
    unfold Erc721.run runOf
    rw [List.foldl_cons]
    refine (owners_outside hid txs _ fun o h => hx o (List.mem_cons_of_mem _ h)).trans ?_
    unfold stepOf
    cases he : Erc721.exec s tx with
    | error e => rfl
    | ok s' =>
      rcases exec_owners he id with e | ⟨_, e⟩
      · exact e
      · exact absurd ((hx tx List.mem_cons_self).2 id e) hid

theorem count_list {ι : Type} [Fintype ι] [DecidableEq ι] {P : ι → Prop} [DecidablePred P] {T : List ι} (hT : T.Nodup)
    (h : ∀ i, P i → i ∈ T) : (∑ i, if P i then 1 else 0) = (T.filter fun i => P i).length := by
  rw [← Finset.card_filter, ← List.toFinset_card_of_nodup (hT.filter _)]
  refine congrArg Finset.card (Finset.ext fun i => ?_)
  rw [List.mem_toFinset, List.mem_filter, Finset.mem_filter, decide_eq_true_eq]
  exact ⟨fun h' => ⟨h i h'.2, h'.2⟩, fun h' => ⟨Finset.mem_univ _, h'.2⟩⟩

/-- **C113** After every history, the balance word of an account is the number of tokens with the account in their owner
word. -/
theorem C113_balance_is_count (h : Setting K n t root S T txs) (hT : T.Nodup) {a : Address} (ha : a ∈ S) (hz : a ≠ ZERO) :
    value K t (after K t root txs).words (Erc721Words.balance root a) =
      some (BitVec.ofNat 256 (held K t root T (after K t root txs).words a)) := by
  have hs := C113_shows h
  suffices key : Erc721.cnt (Erc721.run Erc721.init txs).owners a = held K t root T (after K t root txs).words a by
    rw [hs.balances a ha, (Erc721.reachable_inv ⟨txs, rfl⟩).count a hz, key]
  unfold held Erc721.cnt
  have e : (T.filter fun id => value K t (after K t root txs).words (Erc721Words.owner root id) = some (a.setWidth 256)) =
      T.filter fun id => (Erc721.run Erc721.init txs).owners id = a := by
    refine List.filter_congr fun id hid => ?_
    rw [hs.owners id hid]
    exact decide_eq_decide.mpr ((Option.some.injEq _ _).to_iff.trans wide_inj)
  rw [e]
  refine count_list hT fun id h' => ?_
  by_contra hid
  rw [owners_outside hid txs Erc721.init h.names] at h'
  exact hz h'.symm

/-- **C113** After every history, a call by a user changes the owner word of an existing token only if the sender is in the
owner word, or in the approval word of the token, or if the operator cell of owner and sender is set. -/
theorem C113_no_theft (h : Setting K n t root S T txs) {tx : Erc721.Tx} (hx : Names S T tx) {c : UserCall} (hc : tx.call = .inl c)
    {w' : Erc721Words.State} (he : Erc721Words.exec root K t (after K t root txs) tx = .ok w') {id : U256} (hid : id ∈ T)
    (hex : value K t (after K t root txs).words (Erc721Words.owner root id) ≠ some 0#256)
    (hch : value K t w'.words (Erc721Words.owner root id) ≠ value K t (after K t root txs).words (Erc721Words.owner root id)) :
    value K t (after K t root txs).words (Erc721Words.owner root id) = some (tx.caller.setWidth 256) ∨
    value K t (after K t root txs).words (Erc721Words.approved root id) = some (tx.caller.setWidth 256) ∨
    ∃ o ∈ S, value K t (after K t root txs).words (Erc721Words.owner root id) = some (o.setWidth 256) ∧
      ∃ v, value K t (after K t root txs).words (Erc721Words.operator root o tx.caller) = some v ∧ v ≠ 0#256 := by
  have hs := C113_shows h
  obtain ⟨s', h1, hs'⟩ := (C113_step h tx hx).2 w' he
  rw [hs.owners id hid] at hex hch ⊢
  rw [hs'.owners id hid] at hch
  rw [hs.approvals id hid]
  have hr : Spec.Erc721.Reachable (Erc721.run Erc721.init txs) := ⟨txs, rfl⟩
  have ho : (Erc721.run Erc721.init txs).owners id ∈ S := (inv_after h).choose_spec.2.2 id hid
  have n0 : (Erc721.run Erc721.init txs).owners id ≠ ZERO := by
    intro e
    rw [e] at hex
    exact hex rfl
  have hcz : tx.caller ≠ ZERO := by
    intro e
    unfold Erc721.exec at h1
    rw [if_pos e] at h1
    cases h1
  have hu : Erc721.execUser tx.receivers (Erc721.run Erc721.init txs) tx.caller c = .ok s' := by
    unfold Erc721.exec at h1
    rw [if_neg hcz, hc] at h1
    exact h1
  have hm := Props.Erc721.C47_no_theft _ s' hr tx.receivers tx.caller hcz c hu id
    (by rw [Erc721.owner?_eq]; intro e; exact n0 (Erc721.nobody_none.mp e))
    (by
      rw [Erc721.owner?_eq, Erc721.owner?_eq]
      intro e
      rw [(Erc721.nobody_some (b := (Erc721.run Erc721.init txs).owners id)).mpr ⟨rfl, n0⟩, Erc721.nobody_some] at e
      exact hch (by rw [e.1]))
  obtain ⟨o, ho1, h2⟩ := hm
  rw [Erc721.owner?_eq, Erc721.nobody_some] at ho1
  rcases h2 with h2 | h2 | h2
  · exact .inl (by rw [h2, ho1.1])
  · refine .inr (.inr ⟨o, ho1.1 ▸ ho, by rw [ho1.1], ?_⟩)
    have hcS : tx.caller ∈ S := hx.1 _ List.mem_cons_self
    obtain ⟨v, hv, hv'⟩ := hs.operators o (ho1.1 ▸ ho) tx.caller hcS
    exact ⟨v, hv, hv'.mpr h2⟩
  · rw [Erc721.approved?_eq (Erc721.reachable_inv hr).toNoGhost, Erc721.nobody_some] at h2
    exact .inr (.inl (by rw [h2.1]))

/-- **C113** The words of storage that belong to no account and no token of the history are never written. -/
theorem C113_untouched (h : Setting K n t root S T txs) {S' : List Address} {T' : List U256} (hS : ∀ a ∈ S, a ∈ S') (hT : ∀ i ∈ T, i ∈ T')
    (h' : Separate K n t (Cells root S' T')) {id : U256} (hid : id ∈ T') (hn : id ∉ T) :
    value K t (after K t root txs).words (Erc721Words.owner root id) = some 0#256 := by
  have hs := C113_shows (S := S') (T := T') ⟨h.bound, h.sound, h.place, hS _ h.zero, h',
    fun tx htx => ⟨fun a ha => hS a ((h.names tx htx).1 a ha), fun i hi => hT i ((h.names tx htx).2 i hi)⟩⟩
  rw [hs.owners id hid, owners_outside hn txs Erc721.init h.names]
  rfl

end

/-! ## A concrete case -/

/-- The cells of `examples/erc721` for two accounts and two tokens. -/
def sampleCells : List (List Step) :=
  let root := [Step.field "erc721"]
  [7#256, 8#256].map (Erc721Words.owner root) ++ [0#160, 1#160, 2#160].map (Erc721Words.balance root) ++
    [7#256, 8#256].map (Erc721Words.approved root) ++
    [0#160, 1#160, 2#160].flatMap fun a => [0#160, 1#160, 2#160].map (Erc721Words.operator root a)

/-- What is hashed on the way to them, and the hash values. -/
def sampleTable : List (Bytes × U256) :=
  [(be32 0x7#256 ++ be32 0x0#256, 0x870253054e3d98b71abec8fff9ebf8a15d167f15909091a800d4acaab9266d2b#256),
   (be32 0x8#256 ++ be32 0x0#256, 0x5b8b9143058ba3a137192c563ca6541845e62f0a2f9a667aac4db2fa3c334e3c#256),
   (be32 0x0#256 ++ be32 0x1#256, 0xa6eef7e35abe7026729641147f7915573c7e97b47efa546f5f6e3230263bcb49#256),
   (be32 0x1#256 ++ be32 0x1#256, 0xcc69885fda6bcc1a4ace058b4a62bf5e179ea78fd58a1ccd71c22cc9b688792f#256),
   (be32 0x2#256 ++ be32 0x1#256, 0xd9d16d34ffb15ba3a3d852f0d403e2ce1d691fb54de27ac87cd2f993f3ec330f#256),
   (be32 0x7#256 ++ be32 0x2#256, 0xacd8ef244210bb6898e73c48bf820ed8ecc857a3bab8d79c10e4fa92b1e9ca65#256),
   (be32 0x8#256 ++ be32 0x2#256, 0x3a5ea591190eeb3f8fcdced843c78df04ec0dfd42f5510375207515664fa0a75#256),
   (be32 0x0#256 ++ be32 0x3#256, 0x3617319a054d772f909f7c479a2cebe5066e836a939412e32403c99029b92eff#256),
   (be32 0x0#256 ++ be32 0x3617319a054d772f909f7c479a2cebe5066e836a939412e32403c99029b92eff#256, 0x84fa35e963a209ed7b6693816f0819bcb70c934337c6902235d48a9c59ebe6eb#256),
   (be32 0x1#256 ++ be32 0x3617319a054d772f909f7c479a2cebe5066e836a939412e32403c99029b92eff#256, 0xf5d2b9d7b7dcf31fafb527f48cb641b3e286ba85117ea973378ae75f2b0f27c9#256),
   (be32 0x2#256 ++ be32 0x3617319a054d772f909f7c479a2cebe5066e836a939412e32403c99029b92eff#256, 0xcd92e5b4e6598c1949a71e034c2db052fecdb0cbb23287b5cc133a4ab147474#256),
   (be32 0x1#256 ++ be32 0x3#256, 0xa15bc60c955c405d20d9149c709e2460f1c2d9a497496a7f46004d1772c3054c#256),
   (be32 0x0#256 ++ be32 0xa15bc60c955c405d20d9149c709e2460f1c2d9a497496a7f46004d1772c3054c#256, 0xeb972bfd9e24bc26d8a6be6cef621408cbdcf8fa2ccd03b0e5bf1d9b7c401dee#256),
   (be32 0x1#256 ++ be32 0xa15bc60c955c405d20d9149c709e2460f1c2d9a497496a7f46004d1772c3054c#256, 0xfb8d863de1250aa620936e91467e1af01a92eb0e70a9507f29fbc3ded4c65f25#256),
   (be32 0x2#256 ++ be32 0xa15bc60c955c405d20d9149c709e2460f1c2d9a497496a7f46004d1772c3054c#256, 0x63383099118369e3b7e10810450c200ba30ca74f16a798c21d846e7b8f29f8e5#256),
   (be32 0x2#256 ++ be32 0x3#256, 0xc3a24b0501bd2c13a7e57f2db4369ec4c223447539fc0724a9d55ac4a06ebd4d#256),
   (be32 0x0#256 ++ be32 0xc3a24b0501bd2c13a7e57f2db4369ec4c223447539fc0724a9d55ac4a06ebd4d#256, 0xc29ccf1405d46e3650025b4cb3dd2c6fea976ca3366b6639ae6c9b22378c9255#256),
   (be32 0x1#256 ++ be32 0xc3a24b0501bd2c13a7e57f2db4369ec4c223447539fc0724a9d55ac4a06ebd4d#256, 0x7cc2ad579ffe0e9670c4ed407723dde34cdc5f3ce03ea5a5fd278a558b291aec#256),
   (be32 0x2#256 ++ be32 0xc3a24b0501bd2c13a7e57f2db4369ec4c223447539fc0724a9d55ac4a06ebd4d#256, 0xae01d7727e6eee9de04cfde373d61a6d46a5148baca09e4486c66e17138a24b0#256)]

set_option maxRecDepth 100000 in
theorem sample_table : ∀ e ∈ sampleTable, Spec.Keccak.keccak256 e.1 = e.2 := by
  rw [Proofs.KeccakFast.keccak256_eq]
  decide +kernel

theorem sample_cells {p : List Step} (h : Cells [.field "erc721"] [0#160, 1#160, 2#160] [7#256, 8#256] p) : p ∈ sampleCells := by
  unfold sampleCells
  dsimp only
  rw [List.mem_append, List.mem_append, List.mem_append]
  rcases h with ⟨a, ha, rfl⟩ | ⟨a, ha, rfl⟩ | ⟨a, ha, rfl⟩ | ⟨a, ha, b, hb, rfl⟩
  · exact .inl (.inl (.inl (List.mem_map_of_mem ha)))
  · exact .inl (.inl (.inr (List.mem_map_of_mem ha)))
  · exact .inl (.inr (List.mem_map_of_mem ha))
  · exact .inr (List.mem_flatMap.mpr ⟨a, ha, List.mem_map_of_mem hb⟩)

theorem sample_separate : Separate Spec.Keccak.keccak256 10 erc721Example
    (Cells [.field "erc721"] [0#160, 1#160, 2#160] [7#256, 8#256]) :=
  Proofs.Separate.separate sampleCells sampleTable (fun _ => sample_cells) sample_table (by decide +kernel) (by decide +kernel)
    (by decide +kernel)

/-- Mints of two tokens, an approval, a transfer by the approved account, a transfer by someone who may not, a burn. -/
def sampleTxs : List Erc721.Tx :=
  [⟨1#160, fun _ => none, .inr (.mint 1#160 7#256)⟩, ⟨1#160, fun _ => none, .inr (.mint 1#160 8#256)⟩,
   ⟨1#160, fun _ => none, .inl (.approve 2#160 7#256)⟩, ⟨2#160, fun _ => none, .inl (.transferFrom 1#160 2#160 7#256)⟩,
   ⟨2#160, fun _ => none, .inl (.transferFrom 1#160 2#160 8#256)⟩, ⟨1#160, fun _ => none, .inl (.burn 8#256)⟩]

theorem sample_setting : Setting Spec.Keccak.keccak256 10 erc721Example [.field "erc721"] [0#160, 1#160, 2#160] [7#256, 8#256]
    sampleTxs := by
  refine ⟨by decide, by decide +kernel, ⟨none, 0, rfl⟩, by decide, sample_separate, ?_⟩
  intro tx htx
  simp only [sampleTxs, List.mem_cons, List.not_mem_nil, or_false] at htx
  rcases htx with rfl | rfl | rfl | rfl | rfl | rfl <;> exact ⟨by simp [accounts], by simp [tokens]⟩

-- with Keccak: account 2 owns token 7, token 8 is gone, and the balance words are 0 and 1
example : let w := (after Spec.Keccak.keccak256 erc721Example [.field "erc721"] sampleTxs).words
    value Spec.Keccak.keccak256 erc721Example w (Erc721Words.owner [.field "erc721"] 7#256) = some 2#256 ∧
    value Spec.Keccak.keccak256 erc721Example w (Erc721Words.owner [.field "erc721"] 8#256) = some 0#256 ∧
    value Spec.Keccak.keccak256 erc721Example w (Erc721Words.balance [.field "erc721"] 1#160) = some 0#256 ∧
    value Spec.Keccak.keccak256 erc721Example w (Erc721Words.balance [.field "erc721"] 2#160) = some 1#256 := by
  have h := C113_shows sample_setting
  refine ⟨?_, ?_, ?_, ?_⟩
  · rw [h.owners 7#256 (by decide)]; decide +kernel
  · rw [h.owners 8#256 (by decide)]; decide +kernel
  · rw [h.balances 1#160 (by decide)]; decide +kernel
  · rw [h.balances 2#160 (by decide)]; decide +kernel

-- after two mints the count theorem and the theft theorem apply: the owner moves one, the other account may not
example : (Erc721.exec (Erc721.run Erc721.init (sampleTxs.take 2)) ⟨2#160, fun _ => none, .inl (.transferFrom 1#160 2#160 8#256)⟩).toOption.isNone ∧
    (Erc721.exec (Erc721.run Erc721.init (sampleTxs.take 2)) ⟨1#160, fun _ => none, .inl (.transferFrom 1#160 2#160 8#256)⟩).toOption.isSome := by
  constructor <;> decide +kernel

end Verif.Props.Erc721Words
