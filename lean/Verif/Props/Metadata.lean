import Verif.Spec.Metadata
import Verif.Spec.Erc721
/-! # C82 - C84: token URIs -/

namespace Verif.Props.Metadata
open Verif.Metadata Verif.Spec.Metadata Verif.Spec.Erc721

/-! ## Decimal numbers -/

theorem digit_toNat {d : Nat} (h : d < 10) : (digit d).toNat = 48 + d := by
  rcases d with _ | _ | _ | _ | _ | _ | _ | _ | _ | _ | d <;> first | rfl | omega

theorem read_snoc (s : Str) (c : Char) : readDecimal (s ++ [c]) =
    (readDecimal s).bind fun n => if 48 ≤ c.toNat ∧ c.toNat ≤ 57 then some (10 * n + (c.toNat - 48)) else none := by
  unfold readDecimal
  rw [List.foldl_append]
  rfl

theorem read_decimal (n : Nat) : readDecimal (decimal n) = some n := by
  induction n using Nat.strongRecOn with
  | _ n ih =>
    rw [decimal]
    split
    · rename_i h
      have := digit_toNat h
      rw [← List.nil_append [digit n], read_snoc, this]
      simp only [readDecimal, List.foldl_nil, Option.bind_some]
      rw [if_pos (by omega)]
      congr 1; omega
    · rename_i h
      have hd : n % 10 < 10 := Nat.mod_lt _ (by omega)
      rw [read_snoc, ih (n / 10) (by omega), digit_toNat hd]
      simp only [Option.bind_some]
      rw [if_pos (by omega)]
      congr 1; omega

theorem decimal_ne_nil (n : Nat) : decimal n ≠ [] := by
  rw [decimal]; split <;> simp

theorem decimal_head (n : Nat) (h : 0 < n) : (decimal n).head? ≠ some '0' := by
  induction n using Nat.strongRecOn with
  | _ n ih =>
    rw [decimal]
    split
    · rename_i hn
      intro e
      simp only [List.head?_cons, Option.some.injEq] at e
      have := digit_toNat hn
      rw [e] at this
      have h0 : '0'.toNat = 48 := rfl
      omega
    · rename_i hn
      have := ih (n / 10) (by omega) (by omega)
      cases hd : decimal (n / 10) with
      | nil => exact absurd hd (decimal_ne_nil _)
      | cons a l => rw [hd] at this; simpa using this

theorem isDecimal_decimal (n : Nat) : IsDecimal (decimal n) n where
  reads := read_decimal n
  nonempty := decimal_ne_nil n
  noLeadingZero := by
    intro h
    rcases Nat.eq_zero_or_pos n with rfl | hn
    · rw [decimal]; rfl
    · exact absurd h (decimal_head n hn)

theorem read_snoc_some {s : Str} {c : Char} {n : Nat} (h : readDecimal (s ++ [c]) = some n) :
    ∃ m d, readDecimal s = some m ∧ d < 10 ∧ c = digit d ∧ n = 10 * m + d := by
  rw [read_snoc] at h
  cases hs : readDecimal s with
  | none => rw [hs] at h; simp at h
  | some m =>
    rw [hs] at h
    simp only [Option.bind_some] at h
    split at h
    · rename_i hc
      simp only [Option.some.injEq] at h
      refine ⟨m, c.toNat - 48, rfl, by omega, ?_, by omega⟩
      unfold digit
      rw [show 48 + (c.toNat - 48) = c.toNat by omega, Char.ofNat_toNat]
    · simp at h

/-- Only one string is the decimal form of a number. -/
theorem isDecimal_unique {s : Str} {n : Nat} (h : IsDecimal s n) : s = decimal n := by
  induction s using List.reverseRecOn generalizing n with
  | nil => exact absurd rfl h.nonempty
  | append_singleton s c ih =>
    obtain ⟨m, d, hm, hd, rfl, rfl⟩ := read_snoc_some h.reads
    cases s with
    | nil =>
      simp only [readDecimal, List.foldl_nil, Option.some.injEq] at hm
      subst hm
      rw [decimal, if_pos (by omega)]
      simp
    | cons a l =>
      have hd' : IsDecimal (a :: l) m := by
        refine ⟨hm, by simp, fun h0 => ?_⟩
        have := h.noLeadingZero (by simpa using h0)
        simp at this
      have := ih hd'
      have hm0 : 0 < m := by
        rcases Nat.eq_zero_or_pos m with rfl | hp
        · exfalso
          have h0 : a :: l = ['0'] := by rw [this, decimal]; rfl
          have := h.noLeadingZero (by rw [h0]; rfl)
          rw [h0] at this
          simp at this
        · exact hp
      rw [this, decimal.eq_def (10 * m + d), if_neg (by omega), show (10 * m + d) / 10 = m by omega,
        show (10 * m + d) % 10 = d by omega]

theorem decimal_injective {m n : Nat} (h : decimal m = decimal n) : m = n := by
  have := read_decimal m
  rw [h, read_decimal] at this
  simpa using this.symm

/-! ## C82 -/

theorem ownerOf_cases (t : Erc721.State) (id : U256) :
    (owner? t id = none ∧ Erc721.ownerOf t id = .error (.nonexistentToken id)) ∨
    (∃ a, owner? t id = some a ∧ Erc721.ownerOf t id = .ok a) := by
  unfold owner? Erc721.ownerOf Erc721.requireOwned
  by_cases h : Erc721.ownerOfInternal t id = ZERO
  · left; simp [h]
  · right; exact ⟨Erc721.ownerOfInternal t id, by simp [h], by simp [h]⟩

/-- **C82** Every number has exactly one decimal form: the specification leaves no choice. -/
theorem C82_decimal_form (n : Nat) : ∃! s, IsDecimal s n :=
  ⟨decimal n, isDecimal_decimal n, fun _ h => isDecimal_unique h⟩

/-- **C82** `token_uri` of a token that does not exist is an error; of one that exists, it is empty if the
collection has no base URI and otherwise the base URI followed by the decimal form of the token id. -/
theorem C82_token_uri (m : Erc721Metadata) (t : Erc721.State) (id : U256) :
    (owner? t id = none → m.tokenUri t id = .error (.nonexistentToken id)) ∧
    (owner? t id ≠ none → m.baseUri = [] → m.tokenUri t id = .ok []) ∧
    (owner? t id ≠ none → m.baseUri ≠ [] →
      ∃ ds, IsDecimal ds id.toNat ∧ m.tokenUri t id = .ok (m.baseUri ++ ds)) := by
  unfold Erc721Metadata.tokenUri
  rcases ownerOf_cases t id with ⟨h1, h2⟩ | ⟨a, h1, h2⟩
  · simp [h1, h2]
  · refine ⟨by simp [h1], fun _ hb => by simp [h2, hb], fun _ hb => ⟨_, isDecimal_decimal _, ?_⟩⟩
    simp [h2, hb]

/-- **C82** With a base URI, different tokens have different URIs. -/
theorem C82_distinct (m : Erc721Metadata) (hb : m.baseUri ≠ []) (t t' : Erc721.State) (id id' : U256) (u : Str)
    (h : m.tokenUri t id = .ok u) (h' : m.tokenUri t' id' = .ok u) : id = id' := by
  unfold Erc721Metadata.tokenUri at h h'
  obtain ⟨_, _, h⟩ := bind_eq_ok.mp h
  obtain ⟨_, _, h'⟩ := bind_eq_ok.mp h'
  simp only [List.isEmpty_iff, hb, if_false, except_pure, Except.ok.injEq] at h h'
  rw [← h'] at h
  exact BitVec.eq_of_toNat_eq (decimal_injective (List.append_cancel_left h))

/-- A collection with base URI `ipfs/` and tokens 7 and 10. -/
def sampleMeta : Erc721Metadata := ⟨"Cats".toList, "CAT".toList, "ipfs/".toList⟩

def sampleTx (c : Call) : Tx := ⟨1#160, fun _ => none, c⟩

def sample : List Tx :=
  [sampleTx (.mint 1#160 7#256), sampleTx (.mint 2#160 10#256), sampleTx (.setTokenUri 7#256 "a.json".toList),
   sampleTx (.setTokenUri 9#256 "z".toList), sampleTx (.setTokenUri 7#256 "b.json".toList)]

set_option maxRecDepth 100000 in
example : sampleMeta.tokenUri (run (init sampleMeta) sample).erc721 10#256 = .ok "ipfs/10".toList ∧
    sampleMeta.tokenUri (run (init sampleMeta) sample).erc721 11#256 = .error (.nonexistentToken 11#256) := by
  decide +kernel

/-! ## C83 -/

theorem exec_cases {s s' : State} {tx : Tx} (h : exec s tx = .ok s') :
    s'.metadata = s.metadata ∧
    ((∃ t, tokenTxs [tx] = [t] ∧ Erc721.exec s.erc721 t = .ok s'.erc721 ∧ sets721 [tx] = [] ∧
        s'.uriStorage = s.uriStorage) ∨
     (∃ id u, tokenTxs [tx] = [] ∧ sets721 [tx] = [(id, u)] ∧ s'.erc721 = s.erc721 ∧
        s'.uriStorage = s.uriStorage.setTokenUri id u)) := by
  obtain ⟨c, R, k⟩ := tx
  cases k with
  | mint dst id =>
    obtain ⟨t, ht, h⟩ := bind_eq_ok.mp h
    cases h
    exact ⟨rfl, .inl ⟨_, rfl, ht, rfl, rfl⟩⟩
  | user c =>
    obtain ⟨t, ht, h⟩ := bind_eq_ok.mp h
    cases h
    exact ⟨rfl, .inl ⟨_, rfl, ht, rfl, rfl⟩⟩
  | setTokenUri id u =>
    cases h
    exact ⟨rfl, .inr ⟨id, u, rfl, rfl, rfl, rfl⟩⟩

theorem exec_error {s : State} {tx : Tx} {e : Erc721.Err} (h : exec s tx = .error e) :
    ∃ t, tokenTxs [tx] = [t] ∧ Erc721.exec s.erc721 t = .error e ∧ sets721 [tx] = [] := by
  obtain ⟨c, R, k⟩ := tx
  cases k with
  | mint dst id =>
    refine ⟨_, rfl, ?_, rfl⟩
    simp only [exec] at h
    cases hx : Erc721.exec s.erc721 ⟨c, R, .inr (.mint dst id)⟩ with
    | ok t => rw [hx] at h; simp at h
    | error e' => rw [hx] at h; simpa using h
  | user k =>
    refine ⟨_, rfl, ?_, rfl⟩
    simp only [exec] at h
    cases hx : Erc721.exec s.erc721 ⟨c, R, .inl k⟩ with
    | ok t => rw [hx] at h; simp at h
    | error e' => rw [hx] at h; simpa using h
  | setTokenUri id u => simp [exec] at h

theorem lastSet_snoc (l : List (U256 × Str)) (id i : U256) (u : Str) :
    lastSet (l ++ [(i, u)]) id = if i = id then u else lastSet l id := by
  unfold lastSet
  rw [List.filter_append]
  by_cases h : i = id <;> simp [h]

theorem run_parts (m : Erc721Metadata) (txs : List Tx) :
    (run (init m) txs).metadata = m ∧
    (run (init m) txs).erc721 = Erc721.run Erc721.init (tokenTxs txs) ∧
    (∀ id, (run (init m) txs).uriStorage.tokenUris id = lastSet (sets721 txs) id) ∧
    (run (init m) txs).uriStorage.updates = (sets721 txs).map (·.1) := by
  induction txs using List.reverseRecOn with
  | nil => exact ⟨rfl, rfl, fun _ => rfl, rfl⟩
  | append_singleton txs tx ih =>
    obtain ⟨i1, i2, i3, i4⟩ := ih
    have hrun : run (init m) (txs ++ [tx]) = stepOf exec (run (init m) txs) tx := by
      unfold run; rw [runOf_append]; rfl
    have ht : tokenTxs (txs ++ [tx]) = tokenTxs txs ++ tokenTxs [tx] := List.filterMap_append
    have hs : sets721 (txs ++ [tx]) = sets721 txs ++ sets721 [tx] := List.filterMap_append
    rw [hrun, ht, hs]
    unfold Erc721.run at i2 ⊢
    rw [runOf_append]
    cases hx : exec (run (init m) txs) tx with
    | error e =>
      obtain ⟨t, e1, e2, e3⟩ := exec_error hx
      rw [stepOf_error hx, e1, e3, ← i2, runOf_cons, stepOf_error e2]
      exact ⟨i1, rfl, by simpa using i3, by simpa using i4⟩
    | ok s' =>
      rw [stepOf_ok hx]
      obtain ⟨h1, ⟨t, e1, e2, e3, e4⟩ | ⟨id, u, e1, e2, e3, e4⟩⟩ := exec_cases hx
      · rw [e1, e3, ← i2, runOf_cons, stepOf_ok e2, e4]
        exact ⟨h1.trans i1, rfl, by simpa using i3, by simpa using i4⟩
      · rw [e1, e2, e3, e4]
        refine ⟨h1.trans i1, i2, fun j => ?_, ?_⟩
        · rw [lastSet_snoc]
          simp only [UriStorage.setTokenUri, upd_apply, i3 j]
          by_cases hj : j = id
          · simp [hj]
          · rw [if_neg hj, if_neg (fun e => hj e.symm)]
        · simp [UriStorage.setTokenUri, i4]

/-- **C83** After any history, `tokenURI` is determined by whether the token exists, the base URI and the URI set
last for that token: nothing set for another token, and no token operation, changes it. -/
theorem C83_token_uri (m : Erc721Metadata) (txs : List Tx) (id : U256) :
    let s := run (init m) txs
    let set := lastSet (sets721 txs) id
    (owner? s.erc721 id = none → tokenURI s id = .error (.nonexistentToken id)) ∧
    (owner? s.erc721 id ≠ none →
      (m.baseUri = [] → tokenURI s id = .ok set) ∧
      (m.baseUri ≠ [] → set ≠ [] → tokenURI s id = .ok (m.baseUri ++ set)) ∧
      (m.baseUri ≠ [] → set = [] → ∃ ds, IsDecimal ds id.toNat ∧ tokenURI s id = .ok (m.baseUri ++ ds))) := by
  obtain ⟨h1, _, h3, _⟩ := run_parts m txs
  intro s set
  have hset : s.uriStorage.tokenUris id = set := h3 id
  have hm : s.metadata = m := h1
  unfold tokenURI UriStorage.tokenUri
  rw [hset, hm]
  rcases ownerOf_cases s.erc721 id with ⟨e1, e2⟩ | ⟨a, e1, e2⟩
  · simp [e1, e2]
  · refine ⟨by simp [e1], fun hne => ⟨fun hb => by simp [e2, hb], fun hb hs => by simp [e2, hb, hs],
      fun hb hs => ?_⟩⟩
    obtain ⟨ds, hd, he⟩ := (C82_token_uri m s.erc721 id).2.2 hne hb
    exact ⟨ds, hd, by simp [e2, hb, hs, he]⟩

/-- **C83** Setting URIs does not touch the tokens: the token contract is in the state that the token transactions
alone would have produced; and there is one `MetadataUpdate` per setting, in order. -/
theorem C83_tokens_untouched (m : Erc721Metadata) (txs : List Tx) :
    (run (init m) txs).erc721 = Erc721.run Erc721.init (tokenTxs txs) ∧
    (run (init m) txs).uriStorage.updates = (sets721 txs).map (·.1) :=
  ⟨(run_parts m txs).2.1, (run_parts m txs).2.2.2⟩

/-- **C83** A URI stays with the id for good: whatever happens after it was set (transfers, burning, minting again to
somebody else, other URIs), as long as it is not set again the token, if it exists, has that URI. -/
theorem C83_uri_outlives_token (m : Erc721Metadata) (before after : List Tx) (tx : Tx) (id : U256) (u : Str)
    (hu : u ≠ []) (htx : tx.call = .setTokenUri id u)
    (hafter : ∀ t ∈ after, ∀ v, t.call ≠ .setTokenUri id v)
    (hex : owner? (run (init m) (before ++ tx :: after)).erc721 id ≠ none) :
    tokenURI (run (init m) (before ++ tx :: after)) id = .ok (m.baseUri ++ u) := by
  have hl : lastSet (sets721 (before ++ tx :: after)) id = u := by
    have hsplit : sets721 (before ++ tx :: after) = sets721 before ++ (id, u) :: sets721 after := by
      unfold sets721
      rw [List.filterMap_append, List.filterMap_cons, htx]
    unfold lastSet
    rw [hsplit, List.filter_append, List.filter_cons_of_pos (by simp)]
    have : (sets721 after).filter (fun p => p.1 = id) = [] := by
      rw [List.filter_eq_nil_iff]
      intro p hp
      unfold sets721 at hp
      rw [List.mem_filterMap] at hp
      obtain ⟨t, ht, he⟩ := hp
      have := hafter t ht
      cases hc : t.call with
      | setTokenUri i v =>
        rw [hc] at he this
        simp only [Option.some.injEq] at he
        subst he
        intro e
        simp only [decide_eq_true_eq] at e
        subst e
        exact this v rfl
      | mint _ _ => rw [hc] at he; simp at he
      | user _ => rw [hc] at he; simp at he
    rw [this]
    simp
  have := (C83_token_uri m (before ++ tx :: after) id).2 hex
  simp only [hl] at this
  by_cases hb : m.baseUri = []
  · rw [this.1 hb, hb]; rfl
  · exact this.2.1 hb hu

set_option maxRecDepth 100000 in
example : tokenURI (run (init sampleMeta) sample) 7#256 = .ok "ipfs/b.json".toList ∧
    tokenURI (run (init sampleMeta) sample) 10#256 = .ok "ipfs/10".toList ∧
    tokenURI (run (init sampleMeta) sample) 9#256 = .error (.nonexistentToken 9#256) ∧
    (run (init sampleMeta) sample).uriStorage.updates = [7#256, 9#256, 7#256] := by decide +kernel

set_option maxRecDepth 100000 in
/-- Burned, then minted again for another account: the new token has the old URI. -/
example : tokenURI (run (init sampleMeta) (sample ++ [sampleTx (.user (.burn 7#256))])) 7#256 =
      .error (.nonexistentToken 7#256) ∧
    tokenURI (run (init sampleMeta) (sample ++ [sampleTx (.user (.burn 7#256)), sampleTx (.mint 5#160 7#256)])) 7#256 =
      .ok "ipfs/b.json".toList := by decide +kernel

end Verif.Props.Metadata

namespace Verif.Props.Metadata1155
open Verif.Metadata (Str)
open Verif.Metadata1155 Verif.Spec.Metadata
open Verif.Props.Metadata (lastSet_snoc)

/-! ## C84 -/

theorem exec_cases {s s' : State} {tx : Tx} (h : exec s tx = .ok s') :
    s'.metadataUri = s.metadataUri ∧
    ((sets1155 [tx] = [] ∧ lastBase [tx] = [] ∧ (∀ u, tx.call ≠ .setBaseUri u) ∧ s'.uriStorage = s.uriStorage) ∨
     (∃ id u, tx.call = .setTokenUri id u ∧ s'.uriStorage = s.uriStorage.setTokenUri id u s.metadataUri) ∨
     (∃ u, tx.call = .setBaseUri u ∧ s'.uriStorage = s.uriStorage.setBaseUri u)) := by
  obtain ⟨c, R, k⟩ := tx
  cases k with
  | user k =>
    obtain ⟨t, ht, h⟩ := bind_eq_ok.mp h
    cases h
    exact ⟨rfl, .inl ⟨rfl, rfl, by simp, rfl⟩⟩
  | setTokenUri id u => cases h; exact ⟨rfl, .inr (.inl ⟨id, u, rfl, rfl⟩)⟩
  | setBaseUri u => cases h; exact ⟨rfl, .inr (.inr ⟨u, rfl, rfl⟩)⟩

theorem lastBase_snoc (txs : List Tx) (tx : Tx) :
    lastBase (txs ++ [tx]) = match tx.call with | .setBaseUri u => u | _ => lastBase txs := by
  unfold lastBase
  rw [List.filterMap_append]
  cases h : tx.call <;> simp [h]

theorem sets_snoc (txs : List Tx) (tx : Tx) :
    sets1155 (txs ++ [tx]) = sets1155 txs ++ (match tx.call with | .setTokenUri id u => [(id, u)] | _ => []) := by
  unfold sets1155
  rw [List.filterMap_append]
  cases h : tx.call <;> simp [h]

theorem run_snoc (s : State) (txs : List Tx) (tx : Tx) : run s (txs ++ [tx]) = stepOf exec (run s txs) tx := by
  unfold run; rw [runOf_append]; rfl

theorem run_parts (d : Str) (txs : List Tx) :
    (run (init d) txs).metadataUri = ⟨d⟩ ∧
    (run (init d) txs).uriStorage.baseUri = lastBase txs ∧
    (∀ id, (run (init d) txs).uriStorage.tokenUris id = lastSet (sets1155 txs) id) := by
  induction txs using List.reverseRecOn with
  | nil => exact ⟨rfl, rfl, fun _ => rfl⟩
  | append_singleton txs tx ih =>
    obtain ⟨i1, i2, i3⟩ := ih
    rw [run_snoc, lastBase_snoc, sets_snoc]
    cases hx : exec (run (init d) txs) tx with
    | error e =>
      rw [stepOf_error hx]
      obtain ⟨c, R, k⟩ := tx
      cases k with
      | user k => exact ⟨i1, i2, by simpa using i3⟩
      | setTokenUri id u => simp [exec] at hx
      | setBaseUri u => simp [exec] at hx
    | ok s' =>
      rw [stepOf_ok hx]
      obtain ⟨h1, ⟨e1, _, e3, e4⟩ | ⟨id, u, e1, e4⟩ | ⟨u, e1, e4⟩⟩ := exec_cases hx
      · rw [e4]
        refine ⟨h1.trans i1, ?_, ?_⟩
        · cases hc : tx.call with
          | setBaseUri u => exact absurd hc (e3 u)
          | _ => exact i2
        · intro j
          rw [i3 j]
          cases hc : tx.call with
          | setTokenUri i u => simp [sets1155, hc] at e1
          | _ => simp
      · rw [e4, e1]
        refine ⟨h1.trans i1, i2, fun j => ?_⟩
        simp only [UriStorage.setTokenUri]
        rw [lastSet_snoc, upd_apply, i3 j]
        by_cases hj : j = id
        · simp [hj]
        · rw [if_neg hj, if_neg (fun e => hj e.symm)]
      · rw [e4, e1]
        exact ⟨h1.trans i1, rfl, by simpa [UriStorage.setBaseUri] using i3⟩

/-- **C84** After any history, `uri` of a token type is the base URI set last followed by the URI set last for that
type, or the contract's default URI if none is set (or the empty one). -/
theorem C84_uri (d : Str) (txs : List Tx) (id : U256) :
    uri (run (init d) txs) id =
      if lastSet (sets1155 txs) id = [] then d else lastBase txs ++ lastSet (sets1155 txs) id := by
  obtain ⟨h1, h2, h3⟩ := run_parts d txs
  unfold uri UriStorage.uri MetadataUri.uriOf
  rw [h1, h2, h3 id]
  simp only [List.isEmpty_iff]

/-- **C84** Setting a URI emits exactly one event, whose value is what `uri` returns from then on; no other
transaction emits one. -/
theorem C84_events (d : Str) (txs : List Tx) (tx : Tx) :
    (run (init d) (txs ++ [tx])).uriStorage.events = (run (init d) txs).uriStorage.events ++
      match tx.call with
      | .setTokenUri id _ => [⟨uri (run (init d) (txs ++ [tx])) id, id⟩]
      | _ => [] := by
  rw [run_snoc]
  cases hx : exec (run (init d) txs) tx with
  | error e =>
    rw [stepOf_error hx]
    obtain ⟨c, R, k⟩ := tx
    cases k with
    | user k => simp
    | setTokenUri id u => simp [exec] at hx
    | setBaseUri u => simp [exec] at hx
  | ok s' =>
    rw [stepOf_ok hx]
    obtain ⟨h1, ⟨e1, _, e3, e4⟩ | ⟨id, u, e1, e4⟩ | ⟨u, e1, e4⟩⟩ := exec_cases hx
    · rw [e4]
      cases hc : tx.call with
      | setTokenUri i u => simp [sets1155, hc] at e1
      | _ => simp
    · rw [e4, e1]
      unfold uri
      rw [h1, e4]
      simp [UriStorage.setTokenUri, UriStorage.uri]
    · rw [e4, e1]; simp [UriStorage.setBaseUri]

/-- **C84** The announced value stays true as long as neither this type's URI nor the base URI is set again. -/
theorem C84_event_stays_true (d : Str) (txs after : List Tx) (id : U256)
    (h : ∀ t ∈ after, (∀ v, t.call ≠ .setTokenUri id v) ∧ ∀ v, t.call ≠ .setBaseUri v) :
    uri (run (init d) (txs ++ after)) id = uri (run (init d) txs) id := by
  induction after using List.reverseRecOn with
  | nil => simp
  | append_singleton after tx ih =>
    have ih := ih fun t ht => h t (by simp [ht])
    have htx := h tx (by simp)
    rw [← ih, C84_uri, C84_uri, ← List.append_assoc, lastBase_snoc, sets_snoc]
    cases hc : tx.call with
    | user k => simp
    | setTokenUri i u =>
      have hi : i ≠ id := fun e => htx.1 u (e ▸ hc)
      simp only
      rw [lastSet_snoc, if_neg hi]
    | setBaseUri u => exact absurd hc (htx.2 u)

def sampleTx (c : Call) : Tx := ⟨1#160, fun _ => none, c⟩
def sample : List Tx :=
  [sampleTx (.setTokenUri 7#256 "a".toList), sampleTx (.setBaseUri "x/".toList), sampleTx (.setTokenUri 8#256 "b".toList),
   sampleTx (.setTokenUri 9#256 [])]

/-- Also the stale announcement: the URI of type 7 changed with the base URI and no event said so. -/
theorem C84_base_change_is_silent :
    uri (run (init "d".toList) sample) 7#256 = "x/a".toList ∧ uri (run (init "d".toList) sample) 8#256 = "x/b".toList ∧
    uri (run (init "d".toList) sample) 9#256 = "d".toList ∧ uri (run (init "d".toList) sample) 1#256 = "d".toList ∧
    (run (init "d".toList) sample).uriStorage.events =
      [⟨"a".toList, 7#256⟩, ⟨"x/b".toList, 8#256⟩, ⟨"d".toList, 9#256⟩] := by decide +kernel

end Verif.Props.Metadata1155
