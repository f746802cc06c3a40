import Verif.Props.LogValues
import Verif.Props.Revert
import Verif.Props.Erc20History
import Verif.Props.Erc721
import Verif.Props.Erc1155
import Verif.Props.Access
/-! # C96: the raw logs -/

namespace Verif.Props.Logs
open Verif Verif.Logs
open Verif.Interfaces (SolType signature)
open Verif.Spec.Keccak (keccak256)
open Verif.Spec.Revert (addr)
open Verif.Props.Revert (be32_word)
open Verif.Spec.Logs

/-! ## The encodings -/

theorem setWidth_addr (a : Address) : a.setWidth 256 = addr a := by
  apply BitVec.eq_of_toNat_eq
  unfold addr
  rw [BitVec.toNat_setWidth, BitVec.toNat_ofNat]

theorem flatMap_word (l : List U256) : l.flatMap be32 = l.flatMap Spec.Revert.word := by
  rw [show be32 = Spec.Revert.word from funext be32_word]

private theorem log_eq (K : Hash) (n : String) (ps : List Param) (sig : String) (ts : List U256) (d : Bytes)
    (h : signature n.toList (ps.map fun p => p.val.type) = sig.toList)
    (ht : (ps.filter (·.indexed)).map (·.val.word) = ts)
    (hd : encodeParams ((ps.filter (fun p => !p.indexed)).map (·.val)) = d) :
    toLog K ⟨n, ps⟩ = ⟨eventHash K sig :: ts, d⟩ := by
  unfold toLog eventHash Spec.Keccak.ascii
  rw [h, ht, hd]

local macro "log_entry" : tactic => `(tactic| (refine log_eq _ _ _ _ _ _ rfl ?_ ?_ <;>
  simp [setWidth_addr, encodeParams, headsTails, Val.tail, be32_word, Val.word, flatMap_word]))

/-- **C96** ERC-20: the logs of the standard. -/
theorem C96_erc20 (K : Hash) (a b : Address) (v : U256) :
    toLog K (erc20 (.transfer a b v)) =
      ⟨[eventHash K "Transfer(address,address,uint256)", addr a, addr b], Spec.Revert.word v⟩ ∧
    toLog K (erc20 (.approval a b v)) =
      ⟨[eventHash K "Approval(address,address,uint256)", addr a, addr b], Spec.Revert.word v⟩ := by
  constructor <;> log_entry

/-- **C96** ERC-721: the logs of the standard; the id is a topic, the data of the first two are empty. -/
theorem C96_erc721 (K : Hash) (a b : Address) (id : U256) (ok : Bool) :
    toLog K (erc721 (.transfer a b id)) =
      ⟨[eventHash K "Transfer(address,address,uint256)", addr a, addr b, id], []⟩ ∧
    toLog K (erc721 (.approval a b id)) =
      ⟨[eventHash K "Approval(address,address,uint256)", addr a, addr b, id], []⟩ ∧
    toLog K (erc721 (.approvalForAll a b ok)) =
      ⟨[eventHash K "ApprovalForAll(address,address,bool)", addr a, addr b],
        Spec.Revert.word (if ok then 1#256 else 0#256)⟩ := by
  refine ⟨?_, ?_, ?_⟩ <;> log_entry

/-- **C96** ERC-1155: the logs of the standard.  The data of a batch are the two offsets, then each list with its length
in front. -/
theorem C96_erc1155 (K : Hash) (op a b : Address) (id v : U256) (ids vs : List U256) (ok : Bool) :
    toLog K (erc1155 (.transferSingle op a b id v)) =
      ⟨[eventHash K "TransferSingle(address,address,address,uint256,uint256)", addr op, addr a, addr b],
        Spec.Revert.word id ++ Spec.Revert.word v⟩ ∧
    toLog K (erc1155 (.transferBatch op a b ids vs)) =
      ⟨[eventHash K "TransferBatch(address,address,address,uint256[],uint256[])", addr op, addr a, addr b],
        Spec.Revert.word 64#256 ++ Spec.Revert.word (BitVec.ofNat 256 (96 + 32 * ids.length)) ++
        (Spec.Revert.word (BitVec.ofNat 256 ids.length) ++ ids.flatMap Spec.Revert.word) ++
        (Spec.Revert.word (BitVec.ofNat 256 vs.length) ++ vs.flatMap Spec.Revert.word)⟩ ∧
    toLog K (erc1155 (.approvalForAll a op ok)) =
      ⟨[eventHash K "ApprovalForAll(address,address,bool)", addr a, addr op],
        Spec.Revert.word (if ok then 1#256 else 0#256)⟩ := by
  refine ⟨?_, ?_, ?_⟩
  · log_entry
  · log_entry
    congr 2
    rw [show (fun a => (Spec.Revert.word a).length) = fun _ => 32 from funext fun a => by rw [← be32_word, be32_length],
      List.map_const', List.sum_replicate_nat, ← be32_word, be32_length]
    omega
  · log_entry

/-- **C96** Metadata: `URI` carries the id as a topic and the UTF-8 bytes of the URI, padded with zeros to whole words,
in the data. -/
theorem C96_metadata (K : Hash) (value : List Char) (id : U256) :
    toLog K (uri ⟨value, id⟩) =
      ⟨[eventHash K "URI(string,uint256)", id],
        Spec.Revert.word 32#256 ++ Spec.Revert.word (BitVec.ofNat 256 (utf8 value).length) ++ utf8 value ++
        List.replicate ((32 - (utf8 value).length % 32) % 32) 0#8⟩ ∧
    toLog K (metadataUpdate id) = ⟨[eventHash K "MetadataUpdate(uint256)"], Spec.Revert.word id⟩ := by
  constructor <;> log_entry

/-- **C96** ERC-2309: the first id and both accounts are topics, the last id is in the data. -/
theorem C96_consecutive (K : Hash) (first last : U256) (a b : Address) :
    toLog K (consecutive ⟨first, last, a, b⟩) =
      ⟨[eventHash K "ConsecutiveTransfer(uint256,uint256,address,address)", first, addr a, addr b],
        Spec.Revert.word last⟩ := by
  log_entry

/-- **C96** Ownership, roles and pausing: the logs of the Solidity library. -/
theorem C96_access (K : Hash) (a b : Address) (r p n : B256) :
    toLog K (ownable (.transferred a b)) = ⟨[eventHash K "OwnershipTransferred(address,address)", addr a, addr b], []⟩ ∧
    toLog K (ownable (.started a b)) = ⟨[eventHash K "OwnershipTransferStarted(address,address)", addr a, addr b], []⟩ ∧
    toLog K (accessControl (.roleAdminChanged r p n)) =
      ⟨[eventHash K "RoleAdminChanged(bytes32,bytes32,bytes32)", r, p, n], []⟩ ∧
    toLog K (accessControl (.roleGranted r a b)) =
      ⟨[eventHash K "RoleGranted(bytes32,address,address)", r, addr a, addr b], []⟩ ∧
    toLog K (accessControl (.roleRevoked r a b)) =
      ⟨[eventHash K "RoleRevoked(bytes32,address,address)", r, addr a, addr b], []⟩ ∧
    toLog K (pausable (.paused a)) = ⟨[eventHash K "Paused(address)"], Spec.Revert.word (addr a)⟩ ∧
    toLog K (pausable (.unpaused a)) = ⟨[eventHash K "Unpaused(address)"], Spec.Revert.word (addr a)⟩ := by
  refine ⟨?_, ?_, ?_, ?_, ?_, ?_, ?_⟩ <;> log_entry

/-- **C96** The vault and the vesting wallet: the logs of ERC-4626 and of the Solidity library. -/
theorem C96_finance (K : Hash) (sender receiver owner token : Address) (assets shares : U256) :
    toLog K (erc4626 (.deposit sender owner assets shares)) =
      ⟨[eventHash K "Deposit(address,address,uint256,uint256)", addr sender, addr owner],
        Spec.Revert.word assets ++ Spec.Revert.word shares⟩ ∧
    toLog K (erc4626 (.withdraw sender receiver owner assets shares)) =
      ⟨[eventHash K "Withdraw(address,address,address,uint256,uint256)", addr sender, addr receiver, addr owner],
        Spec.Revert.word assets ++ Spec.Revert.word shares⟩ ∧
    toLog K (vesting (.etherReleased assets)) = ⟨[eventHash K "EtherReleased(uint256)"], Spec.Revert.word assets⟩ ∧
    toLog K (vesting (.erc20Released token assets)) =
      ⟨[eventHash K "ERC20Released(address,uint256)", addr token], Spec.Revert.word assets⟩ := by
  refine ⟨?_, ?_, ?_, ?_⟩ <;> log_entry

/-! ## Different events have different logs -/

theorem word_inj {v w : Val} (ht : v.type = w.type) (hv : v.tail = none) (h : v.word = w.word) : v = w := by
  cases v <;> cases w <;> simp_all [Val.type, Val.tail, Val.word]
  · exact abiAddress_inj (congrArg be32 h)
  · rename_i a b
    cases a <;> cases b <;> simp_all

theorem tail_none {v w : Val} (ht : v.type = w.type) (hv : v.tail = none) : w.tail = none := by
  cases v <;> cases w <;> simp_all [Val.type, Val.tail]

theorem flatMap_be32_inj : ∀ {l m : List U256}, l.flatMap be32 = m.flatMap be32 → l = m
  | [], [], _ => rfl
  | [], y :: m, h => by
    have := congrArg List.length h
    simp only [List.flatMap_nil, List.flatMap_cons, List.length_append, be32_length, List.length_nil] at this
    omega
  | x :: l, [], h => by
    have := congrArg List.length h
    simp only [List.flatMap_nil, List.flatMap_cons, List.length_append, be32_length, List.length_nil] at this
    omega
  | x :: l, y :: m, h => by
    rw [List.flatMap_cons, List.flatMap_cons] at h
    obtain ⟨h1, h2⟩ := be32_cons h
    rw [h1, flatMap_be32_inj h2]

theorem flatMap_be32_length (l : List U256) : (l.flatMap be32).length = 32 * l.length := by
  induction l with
  | nil => rfl
  | cons x l ih => rw [List.flatMap_cons, List.length_append, be32_length, ih, List.length_cons]; omega

/-- Strings are determined by their UTF-8 bytes. -/
theorem utf8_inj {s t : List Char} (h : utf8 s = utf8 t) : s = t := by
  have h1 : s.flatMap String.utf8EncodeChar = t.flatMap String.utf8EncodeChar :=
    List.map_injective_iff.mpr (fun a b hab => UInt8.toBitVec_inj.mp hab) h
  have h2 : s.utf8Encode = t.utf8Encode := by
    unfold List.utf8Encode; rw [h1]
  have h3 := congrArg ByteArray.utf8Decode? h2
  rw [List.utf8Decode?_utf8Encode, List.utf8Decode?_utf8Encode] at h3
  simpa using h3

theorem ofNat_inj {m n : Nat} (hm : m < 2 ^ 256) (hn : n < 2 ^ 256) (h : BitVec.ofNat 256 m = BitVec.ofNat 256 n) : m = n := by
  have := congrArg BitVec.toNat h
  rwa [BitVec.toNat_ofNat, BitVec.toNat_ofNat, Nat.mod_eq_of_lt hm, Nat.mod_eq_of_lt hn] at this

theorem tail_inj {v w : Val} {d d' r r' : Bytes} (ht : v.type = w.type) (fv : FitsVal v) (fw : FitsVal w)
    (hv : v.tail = some d) (hw : w.tail = some d') (h : d ++ r = d' ++ r') : v = w ∧ r = r' := by
  cases v with
  | uints l =>
    cases w with
    | uints m =>
      obtain rfl := Option.some.inj hv
      obtain rfl := Option.some.inj hw
      rw [List.append_assoc, List.append_assoc] at h
      obtain ⟨h1, h2⟩ := be32_cons h
      have hl : l.length = m.length := ofNat_inj fv fw h1
      obtain ⟨h3, h4⟩ := List.append_inj h2 (by rw [flatMap_be32_length, flatMap_be32_length, hl])
      exact ⟨by rw [flatMap_be32_inj h3], h4⟩
    | _ => exact absurd ht (by simp [Val.type])
  | string s =>
    cases w with
    | string t =>
      obtain rfl := Option.some.inj hv
      obtain rfl := Option.some.inj hw
      simp only [List.append_assoc] at h
      obtain ⟨h1, h2⟩ := be32_cons h
      have hl : (utf8 s).length = (utf8 t).length := ofNat_inj fv fw h1
      obtain ⟨h3, h4⟩ := List.append_inj h2 hl
      rw [hl] at h4
      exact ⟨by rw [utf8_inj h3], List.append_cancel_left h4⟩
    | _ => exact absurd ht (by simp [Val.type])
  | _ => exact absurd hv (by simp [Val.tail])

theorem heads_length : ∀ (off : Nat) (vs : List Val), (headsTails off vs).1.length = 32 * vs.length
  | _, [] => rfl
  | off, v :: vs => by
    rw [headsTails]
    split <;> rw [List.length_append, be32_length, heads_length, List.length_cons] <;> omega

theorem headsTails_inj : ∀ (vs ws : List Val) (off off' : Nat), vs.map Val.type = ws.map Val.type →
    (∀ v ∈ vs, FitsVal v) → (∀ w ∈ ws, FitsVal w) → (headsTails off vs).1 = (headsTails off' ws).1 →
    (headsTails off vs).2 = (headsTails off' ws).2 → vs = ws
  | [], [], _, _, _, _, _, _, _ => rfl
  | [], _ :: _, _, _, h, _, _, _, _ => absurd h (by simp)
  | _ :: _, [], _, _, h, _, _, _, _ => absurd h (by simp)
  | v :: vs, w :: ws, off, off', h, fv, fw, h1, h2 => by
    rw [List.map_cons, List.map_cons, List.cons.injEq] at h
    have fv' : ∀ v ∈ vs, FitsVal v := fun x hx => fv x (List.mem_cons_of_mem _ hx)
    have fw' : ∀ w ∈ ws, FitsVal w := fun x hx => fw x (List.mem_cons_of_mem _ hx)
    rw [headsTails, headsTails] at h1 h2
    cases hv : v.tail with
    | none =>
      have hw := tail_none h.1 hv
      rw [hv, hw] at h1 h2
      obtain ⟨h3, h4⟩ := be32_cons h1
      rw [word_inj h.1 hv h3, headsTails_inj vs ws _ _ h.2 fv' fw' h4 h2]
    | some d =>
      cases hw : w.tail with
      | none => exact absurd (tail_none h.1.symm hw) (by rw [hv]; simp)
      | some d' =>
        rw [hv, hw] at h1 h2
        obtain ⟨_, h4⟩ := be32_cons h1
        obtain ⟨h5, h6⟩ := tail_inj h.1 (fv v List.mem_cons_self) (fw w List.mem_cons_self) hv hw h2
        rw [h5, headsTails_inj vs ws _ _ h.2 fv' fw' h4 h6]

/-- **C96** The ABI encoding of a parameter list determines the parameters, for every list of parameter types. -/
theorem C96_encoding_decodes {vs ws : List Val} (ht : vs.map Val.type = ws.map Val.type)
    (fv : ∀ v ∈ vs, FitsVal v) (fw : ∀ w ∈ ws, FitsVal w) (h : encodeParams vs = encodeParams ws) : vs = ws := by
  unfold encodeParams at h
  have hl : vs.length = ws.length := by simpa using congrArg List.length ht
  obtain ⟨h1, h2⟩ := List.append_inj h (by rw [heads_length, heads_length, hl])
  exact headsTails_inj vs ws _ _ ht fv fw h1 h2

/-- The bytes that are hashed for the first topic. -/
def sigBytes (d : String × List (Bool × SolType)) : Bytes :=
  Spec.Keccak.ascii (String.ofList (signature d.1.toList (d.2.map Prod.snd)))

theorem declared_published : ∀ d ∈ declarations, ∃ p ∈ publishedTopics, sigBytes d = Spec.Keccak.ascii p.1 := by decide +kernel

theorem published_nodup : (publishedTopics.map Prod.snd).Nodup := by decide +kernel

theorem declarations_inj : ∀ d ∈ declarations, ∀ d' ∈ declarations, sigBytes d = sigBytes d' →
    (d.2.filter Prod.fst).length = (d'.2.filter Prod.fst).length → d = d' := by decide +kernel

theorem static_indexed : ∀ d ∈ declarations, ∀ p ∈ d.2, p.1 = true → p.2 = .address ∨ p.2 = .uint256 ∨ p.2 = .bytes32 := by
  decide +kernel

theorem merge_params : ∀ (ps qs : List Param), ps.map (·.indexed) = qs.map (·.indexed) →
    ps.filter (·.indexed) = qs.filter (·.indexed) →
    (ps.filter (fun p => !p.indexed)).map (·.val) = (qs.filter (fun p => !p.indexed)).map (·.val) → ps = qs
  | [], [], _, _, _ => rfl
  | [], _ :: _, h, _, _ => absurd h (by simp)
  | _ :: _, [], h, _, _ => absurd h (by simp)
  | p :: ps, q :: qs, h, h1, h2 => by
    rw [List.map_cons, List.map_cons, List.cons.injEq] at h
    obtain ⟨i, v⟩ := p
    obtain ⟨j, w⟩ := q
    obtain ⟨h0, h⟩ := h
    simp only at h0
    subst h0
    cases i with
    | true =>
      simp at h1 h2
      rw [h1.1, merge_params ps qs h h1.2 (by simpa using h2)]
    | false =>
      simp at h1 h2
      rw [h2.1, merge_params ps qs h h1 (by simpa using h2.2)]

theorem words_inj : ∀ (ps qs : List Param), (∀ p ∈ ps, p.val.tail = none) →
    ps.map (fun p => (p.indexed, p.val.type)) = qs.map (fun p => (p.indexed, p.val.type)) →
    ps.map (·.val.word) = qs.map (·.val.word) → ps = qs
  | [], [], _, _, _ => rfl
  | [], _ :: _, _, h, _ => absurd h (by simp)
  | _ :: _, [], _, h, _ => absurd h (by simp)
  | p :: ps, q :: qs, hs, h, h1 => by
    rw [List.map_cons, List.map_cons, List.cons.injEq, Prod.mk.injEq] at h
    rw [List.map_cons, List.map_cons, List.cons.injEq] at h1
    rw [words_inj ps qs (fun x hx => hs x (List.mem_cons_of_mem _ hx)) h.2 h1.2]
    have := word_inj h.1.2 (hs p List.mem_cons_self) h1.1
    obtain ⟨i, v⟩ := p
    obtain ⟨j, w⟩ := q
    simp_all

theorem toLog_topic (K : Hash) (e : SolEvent) :
    (toLog K e).topics = K (sigBytes (e.name, e.params.map fun p => (p.indexed, p.val.type))) ::
      (e.params.filter (·.indexed)).map (·.val.word) := by
  unfold toLog sigBytes Spec.Keccak.ascii
  simp [List.map_map, Function.comp_def]

/-- **C96** The log of an event identifies it: two events of the library with the same log, whichever of its contracts
emitted them, have the same name and the same parameters. -/
theorem C96_distinguishable {e f : SolEvent} (he : Declared e) (hf : Declared f) (fe : Fits e) (ff : Fits f)
    (h : toLog keccak256 e = toLog keccak256 f) : e = f := by
  have ht := congrArg Log.topics h
  have hd : encodeParams _ = encodeParams _ := congrArg Log.data h
  rw [toLog_topic, toLog_topic, List.cons.injEq] at ht
  obtain ⟨p, hp, hpe⟩ := declared_published _ he
  obtain ⟨q, hq, hqf⟩ := declared_published _ hf
  have hpq : p.2 = q.2 := by
    rw [← C96_published_topics p hp, ← C96_published_topics q hq]; unfold eventHash; rw [← hpe, ← hqf, ht.1]
  have hpq := List.inj_on_of_nodup_map (f := Prod.snd) published_nodup hp hq hpq
  have hlen := congrArg List.length ht.2
  have fil : ∀ l : List Param, ((l.map fun p => (p.indexed, p.val.type)).filter Prod.fst) =
      (l.filter (·.indexed)).map fun p => (p.indexed, p.val.type) := by
    intro l; rw [List.filter_map]; rfl
  have hdecl := declarations_inj _ he _ hf (by rw [hpe, hqf, hpq]) (by
    rw [fil, fil, List.length_map, List.length_map]; simpa using hlen)
  rw [Prod.mk.injEq] at hdecl
  obtain ⟨hn, hps⟩ := hdecl
  have hind : e.params.map (·.indexed) = f.params.map (·.indexed) := by
    have := congrArg (List.map Prod.fst) hps
    simpa [List.map_map, Function.comp_def] using this
  have h1 : e.params.filter (·.indexed) = f.params.filter (·.indexed) := by
    refine words_inj _ _ (fun x hx => ?_) ?_ ht.2
    · obtain ⟨hx1, hx2⟩ := List.mem_filter.mp hx
      have := static_indexed _ he (x.indexed, x.val.type) (List.mem_map.mpr ⟨x, hx1, rfl⟩) hx2
      obtain ⟨i, v⟩ := x
      cases v <;> simp_all [Val.type, Val.tail]
    · rw [← fil, ← fil, hps]
  have h2 := C96_encoding_decodes (vs := (e.params.filter (fun p => !p.indexed)).map (·.val))
    (ws := (f.params.filter (fun p => !p.indexed)).map (·.val)) (by
      have fil' : ∀ l : List Param, ((l.map fun p => (p.indexed, p.val.type)).filter (fun x => !x.1)).map Prod.snd =
          ((l.filter (fun p => !p.indexed)).map (·.val)).map Val.type := by
        intro l; rw [List.filter_map, List.map_map, List.map_map]; rfl
      rw [← fil', ← fil', hps]) (by
      intro v hv
      obtain ⟨x, hx, rfl⟩ := List.mem_map.mp hv
      exact fe x (List.mem_filter.mp hx).1) (by
      intro v hv
      obtain ⟨x, hx, rfl⟩ := List.mem_map.mp hv
      exact ff x (List.mem_filter.mp hx).1) hd
  have h3 := merge_params _ _ hind h1 h2
  obtain ⟨n, ps⟩ := e
  obtain ⟨m, qs⟩ := f
  simp_all

end Verif.Props.Logs
