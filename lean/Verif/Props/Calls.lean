import Verif.Model.Calls
import Verif.Proofs.Entry
import Verif.Props.SafeErc20
import Verif.Props.Erc721
import Verif.Props.Erc1155
import Verif.Props.FlashMint
import Verif.Model.Entry
/-!
# C101: the messages the library sends

`D` is any decoder that reads encodings back (`Abi.Decoder`).
-/
namespace Verif.Props.Calls
open Verif Verif.Abi Verif.Calls Verif.Proofs.Abi Verif.Proofs.Entry
open Verif.Interfaces (SolType functionSelector signature)
open Verif.Spec.Keccak (keccak256)
open Verif.Spec.Revert (word addr)
open Verif.Spec.Calls (call sel tail array)
open Verif.Revert (be4)

/-! ## The bytes -/

/-- Signatures of the functions called, with their published selectors (ERC-20, ERC-721, ERC-1155, ERC-3156). -/
def published : List (String × Bytes) :=
  [("transfer(address,uint256)", [0xa9#8, 0x05#8, 0x9c#8, 0xbb#8]),
   ("transferFrom(address,address,uint256)", [0x23#8, 0xb8#8, 0x72#8, 0xdd#8]),
   ("approve(address,uint256)", [0x09#8, 0x5e#8, 0xa7#8, 0xb3#8]),
   ("allowance(address,address)", [0xdd#8, 0x62#8, 0xed#8, 0x3e#8]),
   ("balanceOf(address)", [0x70#8, 0xa0#8, 0x82#8, 0x31#8]),
   ("ownerOf(uint256)", [0x63#8, 0x52#8, 0x21#8, 0x1e#8]),
   ("safeTransferFrom(address,address,uint256,bytes)", [0xb8#8, 0x8d#8, 0x4f#8, 0xde#8]),
   ("onERC721Received(address,address,uint256,bytes)", [0x15#8, 0x0b#8, 0x7a#8, 0x02#8]),
   ("onERC1155Received(address,address,uint256,uint256,bytes)", [0xf2#8, 0x3a#8, 0x6e#8, 0x61#8]),
   ("onERC1155BatchReceived(address,address,uint256[],uint256[],bytes)", [0xbc#8, 0x19#8, 0x7c#8, 0x81#8]),
   ("onFlashLoan(address,address,uint256,uint256,bytes)", [0x23#8, 0xe3#8, 0x0c#8, 0x8b#8])]

set_option maxRecDepth 100000 in
theorem published_ok : ∀ p ∈ published, sel p.1 = p.2 := by
  unfold sel
  rw [Proofs.KeccakFast.keccak256_eq]
  decide +kernel

theorem bytes_eq (m : Message) (sg : String) (h : signature m.name.toList (m.args.map Val.type) = sg.toList) :
    m.bytes keccak256 = sel sg ++ encode m.args := by
  unfold Message.bytes calldata functionSelector
  rw [h, Props.Revert.be4_word]
  rfl

/-- The signature of the function called. -/
def signatureOf : Message → String
  | .transfer .. => "transfer(address,uint256)"
  | .transferFrom .. => "transferFrom(address,address,uint256)"
  | .approve .. => "approve(address,uint256)"
  | .allowance .. => "allowance(address,address)"
  | .balanceOf .. => "balanceOf(address)"
  | .ownerOf .. => "ownerOf(uint256)"
  | .safeTransferFrom .. => "safeTransferFrom(address,address,uint256,bytes)"
  | .onERC721Received .. => "onERC721Received(address,address,uint256,bytes)"
  | .onERC1155Received .. => "onERC1155Received(address,address,uint256,uint256,bytes)"
  | .onERC1155BatchReceived .. => "onERC1155BatchReceived(address,address,uint256[],uint256[],bytes)"
  | .onFlashLoan .. => "onFlashLoan(address,address,uint256,uint256,bytes)"

theorem signature_ok (m : Message) : signature m.name.toList (m.args.map Val.type) = (signatureOf m).toList := by
  cases m <;> simp only [Message.name, Message.args, signatureOf, List.map, Val.type] <;> decide +kernel

theorem bytes_sig (m : Message) : m.bytes keccak256 = sel (signatureOf m) ++ encode m.args :=
  bytes_eq m _ (signature_ok m)

theorem bytes_published (m : Message) (b : Bytes) (h : (signatureOf m, b) ∈ published) :
    m.bytes keccak256 = b ++ encode m.args := by
  rw [bytes_sig m, published_ok _ h]

theorem head_address (a : Address) (vs : List Val) (off : Nat) : headsTails off (.address a :: vs) =
    (word (addr a) ++ (headsTails off vs).1, (headsTails off vs).2) := by
  rw [static_cons (address_code a), Props.Revert.be32_word]

theorem head_uint (x : U256) (vs : List Val) (off : Nat) : headsTails off (.uint256 x :: vs) =
    (word x ++ (headsTails off vs).1, (headsTails off vs).2) := by
  rw [static_cons rfl, Props.Revert.be32_word]

theorem head_bytes (b : Bytes) (vs : List Val) (off : Nat) : headsTails off (.bytes b :: vs) =
    (word (BitVec.ofNat 256 off) ++ (headsTails (off + (tail b).length) vs).1,
      tail b ++ (headsTails (off + (tail b).length) vs).2) := by
  have : sized b = tail b := by simp [sized, tail, Props.Revert.be32_word]
  rw [headsTails, show (Val.bytes b).code = .inr (sized b) from rfl, this, Props.Revert.be32_word]

theorem head_uints (l : List U256) (vs : List Val) (off : Nat) : headsTails off (.uints l :: vs) =
    (word (BitVec.ofNat 256 off) ++ (headsTails (off + (array l).length) vs).1,
      array l ++ (headsTails (off + (array l).length) vs).2) := by
  have : be32 (BitVec.ofNat 256 l.length) ++ l.flatMap be32 = array l := by
    simp only [array, Props.Revert.be32_word]
    congr 2
    funext x; exact Props.Revert.be32_word x
  rw [headsTails, show (Val.uints l).code = .inr (be32 (BitVec.ofNat 256 l.length) ++ l.flatMap be32) from rfl, this,
    Props.Revert.be32_word]

theorem head_nil (off : Nat) : headsTails off [] = ([], []) := rfl

theorem array_length (l : List U256) : (array l).length = 32 + 32 * l.length := by
  unfold array
  rw [List.length_append, flatMap_word_length]
  simp [Spec.Revert.word]

/-- **C101** What the library sends to tokens: selector and words of the standard call. -/
theorem C101_token_messages (src dst : Address) (v : U256) (data : Bytes) :
    (Message.transfer dst v).bytes keccak256 = [0xa9#8, 0x05#8, 0x9c#8, 0xbb#8] ++ word (addr dst) ++ word v ∧
    (Message.transferFrom src dst v).bytes keccak256 =
      [0x23#8, 0xb8#8, 0x72#8, 0xdd#8] ++ word (addr src) ++ word (addr dst) ++ word v ∧
    (Message.approve dst v).bytes keccak256 = [0x09#8, 0x5e#8, 0xa7#8, 0xb3#8] ++ word (addr dst) ++ word v ∧
    (Message.allowance src dst).bytes keccak256 = [0xdd#8, 0x62#8, 0xed#8, 0x3e#8] ++ word (addr src) ++ word (addr dst) ∧
    (Message.balanceOf dst).bytes keccak256 = [0x70#8, 0xa0#8, 0x82#8, 0x31#8] ++ word (addr dst) ∧
    (Message.ownerOf v).bytes keccak256 = [0x63#8, 0x52#8, 0x21#8, 0x1e#8] ++ word v ∧
    (Message.safeTransferFrom src dst v data).bytes keccak256 =
      [0xb8#8, 0x8d#8, 0x4f#8, 0xde#8] ++ word (addr src) ++ word (addr dst) ++ word v ++ word 0x80#256 ++ tail data := by
  refine ⟨?_, ?_, ?_, ?_, ?_, ?_, ?_⟩
  · rw [bytes_published _ [0xa9#8, 0x05#8, 0x9c#8, 0xbb#8] (by simp [published, signatureOf])]
    simp [encode, Message.args, head_address, head_uint, head_nil]
  · rw [bytes_published _ [0x23#8, 0xb8#8, 0x72#8, 0xdd#8] (by simp [published, signatureOf])]
    simp [encode, Message.args, head_address, head_uint, head_nil]
  · rw [bytes_published _ [0x09#8, 0x5e#8, 0xa7#8, 0xb3#8] (by simp [published, signatureOf])]
    simp [encode, Message.args, head_address, head_uint, head_nil]
  · rw [bytes_published _ [0xdd#8, 0x62#8, 0xed#8, 0x3e#8] (by simp [published, signatureOf])]
    simp [encode, Message.args, head_address, head_nil]
  · rw [bytes_published _ [0x70#8, 0xa0#8, 0x82#8, 0x31#8] (by simp [published, signatureOf])]
    simp [encode, Message.args, head_address, head_nil]
  · rw [bytes_published _ [0x63#8, 0x52#8, 0x21#8, 0x1e#8] (by simp [published, signatureOf])]
    simp [encode, Message.args, head_uint, head_nil]
  · rw [bytes_published _ [0xb8#8, 0x8d#8, 0x4f#8, 0xde#8] (by simp [published, signatureOf])]
    simp [encode, Message.args, head_address, head_uint, head_bytes, head_nil]

/-- **C101** What the library sends to receivers and borrowers: `onERC721Received`, `onERC1155Received`,
`onERC1155BatchReceived` and `onFlashLoan` with the offsets, lengths and padding of the ABI. -/
theorem C101_receiver_messages (op src token : Address) (id v fee : U256) (ids vs : List U256) (data : Bytes) :
    (Message.onERC721Received op src id data).bytes keccak256 =
      [0x15#8, 0x0b#8, 0x7a#8, 0x02#8] ++ word (addr op) ++ word (addr src) ++ word id ++ word 0x80#256 ++ tail data ∧
    (Message.onERC1155Received op src id v data).bytes keccak256 =
      [0xf2#8, 0x3a#8, 0x6e#8, 0x61#8] ++ word (addr op) ++ word (addr src) ++ word id ++ word v ++ word 0xa0#256 ++
        tail data ∧
    (Message.onERC1155BatchReceived op src ids vs data).bytes keccak256 =
      [0xbc#8, 0x19#8, 0x7c#8, 0x81#8] ++ word (addr op) ++ word (addr src) ++ word 0xa0#256 ++
        word (BitVec.ofNat 256 (0xa0 + (32 + 32 * ids.length))) ++
        word (BitVec.ofNat 256 (0xa0 + (32 + 32 * ids.length) + (32 + 32 * vs.length))) ++
        array ids ++ array vs ++ tail data ∧
    (Message.onFlashLoan op token v fee data).bytes keccak256 =
      [0x23#8, 0xe3#8, 0x0c#8, 0x8b#8] ++ word (addr op) ++ word (addr token) ++ word v ++ word fee ++ word 0xa0#256 ++
        tail data := by
  refine ⟨?_, ?_, ?_, ?_⟩
  · rw [bytes_published _ [0x15#8, 0x0b#8, 0x7a#8, 0x02#8] (by simp [published, signatureOf])]
    simp [encode, Message.args, head_address, head_uint, head_bytes, head_nil]
  · rw [bytes_published _ [0xf2#8, 0x3a#8, 0x6e#8, 0x61#8] (by simp [published, signatureOf])]
    simp [encode, Message.args, head_address, head_uint, head_bytes, head_nil]
  · rw [bytes_published _ [0xbc#8, 0x19#8, 0x7c#8, 0x81#8] (by simp [published, signatureOf])]
    simp [encode, Message.args, head_address, head_bytes, head_uints, head_nil, array_length]
  · rw [bytes_published _ [0x23#8, 0xe3#8, 0x0c#8, 0x8b#8] (by simp [published, signatureOf])]
    simp [encode, Message.args, head_address, head_uint, head_bytes, head_nil]

/-! ## What the other side reads -/

/-- **C101** The callee reads what was meant: the first four bytes are the selector of the function, and any decoder finds
the arguments behind them. -/
theorem C101_read_back (D : Decoder) (m : Message) (hl : (encode m.args).length < 2 ^ 256) :
    (m.bytes keccak256).take 4 = sel (signatureOf m) ∧
    D.read (m.args.map Val.type) ((m.bytes keccak256).drop 4) = some m.args := by
  have h4 : (sel (signatureOf m)).length = 4 := by simp [Spec.Calls.sel, Spec.Revert.word]
  rw [bytes_sig, List.take_left' h4, List.drop_left' h4]
  exact ⟨rfl, D.complete _ hl⟩

/-- **C101** Different messages are different bytes: a contract that is sent one of these messages can tell which it is and
what its arguments are. -/
theorem C101_unambiguous {m n : Message} (hm : (encode m.args).length < 2 ^ 256)
    (hn : (encode n.args).length < 2 ^ 256) (h : m.bytes keccak256 = n.bytes keccak256) : m = n := by
  have hm' := C101_read_back lenient m hm
  have hn' := C101_read_back lenient n hn
  rw [h] at hm'
  have hsel : sel (signatureOf m) = sel (signatureOf n) := hm'.1.symm.trans hn'.1
  have hp : ∀ m : Message, ∃ b, (signatureOf m, b) ∈ published := by
    intro m; cases m <;> simp [signatureOf, published]
  obtain ⟨b, hb⟩ := hp m
  obtain ⟨c, hc⟩ := hp n
  rw [published_ok _ hb, published_ok _ hc] at hsel
  simp only at hsel
  subst hsel
  have hs : ∀ p ∈ published, ∀ q ∈ published, p.2 = q.2 → p.1 = q.1 := by decide
  have hsig : signatureOf m = signatureOf n := hs _ hb _ hc rfl
  have hargs : m.args = n.args := by
    have ht : m.args.map Val.type = n.args.map Val.type := by
      cases m <;> cases n <;> first | rfl | exact absurd hsig (by simp [signatureOf])
    rw [ht, hn'.2] at hm'
    exact (Option.some.inj hm'.2).symm
  clear hm hn hm' hn' h hb hc hs hp
  cases m <;> cases n <;> first
    | (exfalso; simp only [signatureOf, String.reduceEq] at hsig; done)
    | (simp only [Message.args, List.cons.injEq, Val.address.injEq, Val.uint256.injEq, Val.bytes.injEq, Val.uints.injEq,
        and_true] at hargs
       simp [hargs])

/-! ## What the library makes of the reply -/

theorem read_one {D : Decoder} {v : Val} {w : U256} (hv : v.code = .inl w) : D.read [v.type] (word w) = some [v] := by
  have h := D.complete [v]
  rw [encode_static (ws := [w]) (by simp [hv])] at h
  simpa using h (by rw [flatMap_word_length]; simp)

theorem read_one_inv {D : Decoder} {v : Val} {w : U256} {t : SolType} {data : Bytes} (hv : v.code = .inl w)
    (h : D.read [t] data = some [v]) : word w <+: data := by
  have := D.static _ _ _ h (by simpa using ⟨w, hv⟩)
  rw [encode_static (ws := [w]) (by simp [hv])] at this
  simpa using this

theorem answer721_inv {D : Decoder} {o : Outcome Unit} {x : BitVec 32} (h : answer721 D o = .selector x) :
    ∃ data, o = .returned () data ∧ word (x ++ 0#224) <+: data := by
  cases o with
  | reverted d => cases h
  | returned u data =>
    refine ⟨data, rfl, ?_⟩
    simp only [answer721] at h
    split at h
    · rename_i y hy
      cases h
      exact read_one_inv rfl hy
    · cases h

theorem answer1155_inv {D : Decoder} {o : Outcome Unit} {x : BitVec 32} (h : answer1155 D o = .selector x) :
    ∃ data, o = .returned () data ∧ word (x ++ 0#224) <+: data := by
  cases o with
  | reverted d => cases h
  | returned u data =>
    refine ⟨data, rfl, ?_⟩
    simp only [answer1155] at h
    split at h
    · rename_i y hy
      cases h
      exact read_one_inv rfl hy
    · cases h

/-- A `bytes4` as a word: to the left. -/
def magicWord (a b c d : U8) : Bytes := [a, b, c, d] ++ List.replicate 28 0#8

theorem magic721 : word (0x150b7a02#32 ++ 0#224) = magicWord 0x15#8 0x0b#8 0x7a#8 0x02#8 := by decide +kernel
theorem magicSingle : word (0xf23a6e61#32 ++ 0#224) = magicWord 0xf2#8 0x3a#8 0x6e#8 0x61#8 := by decide +kernel
theorem magicBatch : word (0xbc197c81#32 ++ 0#224) = magicWord 0xbc#8 0x19#8 0x7c#8 0x81#8 := by decide +kernel

/-- **C101** A safe ERC-721 transfer to an account with code succeeds only if the account, sent exactly these bytes,
returned data that begin with the magic word; and if it returns the magic word, the transfer is as good as an unsafe one. -/
theorem C101_erc721_receiver (D : Decoder) (W : Address → Option (Bytes → Outcome Unit)) (s s' : Erc721.State)
    (caller src dst : Address) (id : U256) (data : Bytes) (prog : Bytes → Outcome Unit) (hp : W dst = some prog) :
    let msg := [0x15#8, 0x0b#8, 0x7a#8, 0x02#8] ++ word (addr caller) ++ word (addr src) ++ word id ++ word 0x80#256 ++
      tail data
    let magic := magicWord 0x15#8 0x0b#8 0x7a#8 0x02#8
    (Erc721.safeTransferFromWithData (receivers721 keccak256 D W) s caller src dst id data = .ok s' →
      Erc721.transferFrom s caller src dst id = .ok s' ∧
      ∃ reply, prog msg = .returned () reply ∧ magic <+: reply) ∧
    (prog msg = .returned () magic →
      Erc721.safeTransferFromWithData (receivers721 keccak256 D W) s caller src dst id data =
        Erc721.transferFrom s caller src dst id) := by
  intro msg magic
  have hR : receivers721 keccak256 D W dst = some fun op a i d =>
      answer721 D (prog ((Message.onERC721Received op a i d).bytes keccak256)) := by simp [receivers721, hp]
  have hmsg : (Message.onERC721Received caller src id data).bytes keccak256 = msg :=
    (C101_receiver_messages caller src 0#160 id 0#256 0#256 [] [] data).1
  constructor
  · intro h
    obtain ⟨h1, h2⟩ := (Props.Erc721.C50_safe_transfer _ _ _ _ _ _ _ _).mp h
    refine ⟨h1, ?_⟩
    have := h2 _ hR
    rw [hmsg] at this
    obtain ⟨r, hr, hpre⟩ := answer721_inv this
    rw [magic721] at hpre
    exact ⟨r, hr, hpre⟩
  · intro h
    have ha : answer721 D (prog msg) = .selector 0x150b7a02#32 := by
      rw [h]
      simp only [answer721]
      rw [show magic = word (0x150b7a02#32 ++ 0#224) from magic721.symm,
        show D.read [.bytes4] (word (0x150b7a02#32 ++ 0#224)) = some [.bytes4 0x150b7a02#32] from
          read_one (v := .bytes4 0x150b7a02#32) rfl]
    cases hx : Erc721.transferFrom s caller src dst id with
    | ok s1 =>
      refine (Props.Erc721.C50_safe_transfer _ _ _ _ _ _ _ _).mpr ⟨hx, fun f hf => ?_⟩
      rw [hR] at hf
      obtain rfl := Option.some.inj hf
      simp only [hmsg, ha]
    | error e =>
      unfold Erc721.safeTransferFromWithData
      rw [hx]; rfl

/-- **C101** A receiver that reverts has its data passed on as the revert data of the transfer. -/
theorem C101_erc721_revert (D : Decoder) (W : Address → Option (Bytes → Outcome Unit)) (s s1 : Erc721.State)
    (caller src dst : Address) (id : U256) (data reason : Bytes) (prog : Bytes → Outcome Unit) (hp : W dst = some prog)
    (hx : Erc721.transferFrom s caller src dst id = .ok s1) (hne : reason ≠ [])
    (hr : prog ([0x15#8, 0x0b#8, 0x7a#8, 0x02#8] ++ word (addr caller) ++ word (addr src) ++ word id ++ word 0x80#256 ++
      tail data) = .reverted reason) :
    Erc721.safeTransferFromWithData (receivers721 keccak256 D W) s caller src dst id data =
      .error (.invalidReceiverWithReason reason) := by
  have hR : receivers721 keccak256 D W dst = some fun op a i d =>
      answer721 D (prog ((Message.onERC721Received op a i d).bytes keccak256)) := by simp [receivers721, hp]
  refine (Props.Erc721.C50_refusal_reported _ _ s1 caller src dst id data hx _ hR).1 reason hne ?_
  rw [(C101_receiver_messages caller src 0#160 id 0#256 0#256 [] [] data).1, hr]
  rfl

/-- **C101** The same for a single ERC-1155 transfer. -/
theorem C101_erc1155_receiver (D : Decoder) (W : Address → Option (Bytes → Outcome Unit)) (s : Erc1155.State)
    (caller src dst : Address) (id v : U256) (data : Bytes) (prog : Bytes → Outcome Unit) (hp : W dst = some prog) :
    let msg := [0xf2#8, 0x3a#8, 0x6e#8, 0x61#8] ++ word (addr caller) ++ word (addr src) ++ word id ++ word v ++
      word 0xa0#256 ++ tail data
    let magic := magicWord 0xf2#8 0x3a#8 0x6e#8 0x61#8
    (∀ s', Erc1155.safeTransferFrom (receivers1155 keccak256 D W) s caller src dst id v data = .ok s' →
      ∃ reply, prog msg = .returned () reply ∧ magic <+: reply) ∧
    (prog msg = .returned () magic → Spec.Erc1155.MayMove s caller src → src ≠ ZERO → dst ≠ ZERO → src ≠ dst →
      v.toNat ≤ (Erc1155.balanceOf s src id).toNat → (Erc1155.balanceOf s dst id).toNat + v.toNat < 2 ^ 256 →
      ∃ s', Erc1155.safeTransferFrom (receivers1155 keccak256 D W) s caller src dst id v data = .ok s') := by
  intro msg magic
  have hR : receivers1155 keccak256 D W dst = some fun n => answer1155 D (prog ((notice n).bytes keccak256)) := by
    simp [receivers1155, hp]
  have hmsg : (notice (.single caller src id v data)).bytes keccak256 = msg :=
    (C101_receiver_messages caller src 0#160 id v 0#256 [] [] data).2.1
  obtain ⟨h1, _⟩ := Erc1155.Props.C57_single_transfer (receivers1155 keccak256 D W) s caller src dst id v data
  constructor
  · intro s' h
    have := (h1.mp ⟨s', h⟩).2.2.2.2.2 _ hR
    rw [hmsg] at this
    obtain ⟨r, hr, hpre⟩ := answer1155_inv this
    rw [magicSingle] at hpre
    exact ⟨r, hr, hpre⟩
  · intro h hm hs hd hne hb hroom
    refine h1.mpr ⟨hm, hs, hd, hb, fun _ => hroom, fun f hf => ?_⟩
    rw [hR] at hf
    obtain rfl := Option.some.inj hf
    simp only [hmsg, h, answer1155]
    rw [show magic = word (0xf23a6e61#32 ++ 0#224) from magicSingle.symm,
      show D.read [.bytes4] (word (0xf23a6e61#32 ++ 0#224)) = some [.bytes4 0xf23a6e61#32] from
        read_one (v := .bytes4 0xf23a6e61#32) rfl]

/-- **C101** The same for a batch of another length than one: the receiver is sent both lists. -/
theorem C101_erc1155_batch_receiver (D : Decoder) (W : Address → Option (Bytes → Outcome Unit)) (s : Erc1155.State)
    (caller src dst : Address) (ids vs : List U256) (data : Bytes) (prog : Bytes → Outcome Unit) (hp : W dst = some prog)
    (hlen : ids.length ≠ 1) :
    let msg := [0xbc#8, 0x19#8, 0x7c#8, 0x81#8] ++ word (addr caller) ++ word (addr src) ++ word 0xa0#256 ++
      word (BitVec.ofNat 256 (0xa0 + (32 + 32 * ids.length))) ++
      word (BitVec.ofNat 256 (0xa0 + (32 + 32 * ids.length) + (32 + 32 * vs.length))) ++
      array ids ++ array vs ++ tail data
    let magic := magicWord 0xbc#8 0x19#8 0x7c#8 0x81#8
    (∀ s', Erc1155.safeBatchTransferFrom (receivers1155 keccak256 D W) s caller src dst ids vs data = .ok s' →
      ∃ reply, prog msg = .returned () reply ∧ magic <+: reply) ∧
    (prog msg = .returned () magic → Spec.Erc1155.MayMove s caller src → src ≠ ZERO → dst ≠ ZERO →
      ids.length = vs.length → Spec.Erc1155.Covered s src dst (ids.zip vs) →
      ∃ s', Erc1155.safeBatchTransferFrom (receivers1155 keccak256 D W) s caller src dst ids vs data = .ok s') := by
  intro msg magic
  have hR : receivers1155 keccak256 D W dst = some fun n => answer1155 D (prog ((notice n).bytes keccak256)) := by
    simp [receivers1155, hp]
  have hmsg : (notice (.batch caller src ids vs data)).bytes keccak256 = msg :=
    (C101_receiver_messages caller src 0#160 0#256 0#256 0#256 ids vs data).2.2.1
  obtain ⟨h1, _⟩ := Erc1155.Props.C57_batch_transfer (receivers1155 keccak256 D W) s caller src dst ids vs data
  constructor
  · intro s' h
    have := (h1.mp ⟨s', h⟩).2.2.2.2.2.2 hlen _ hR
    rw [hmsg] at this
    obtain ⟨r, hr, hpre⟩ := answer1155_inv this
    rw [magicBatch] at hpre
    exact ⟨r, hr, hpre⟩
  · intro h hm hs hd hl hc
    refine h1.mpr ⟨hm, hs, hd, hl, hc, fun i v hi _ => absurd (by rw [hi]; rfl) hlen, fun _ f hf => ?_⟩
    rw [hR] at hf
    obtain rfl := Option.some.inj hf
    simp only [hmsg, h, answer1155]
    rw [show magic = word (0xbc197c81#32 ++ 0#224) from magicBatch.symm,
      show D.read [.bytes4] (word (0xbc197c81#32 ++ 0#224)) = some [.bytes4 0xbc197c81#32] from
        read_one (v := .bytes4 0xbc197c81#32) rfl]

/-- **C101** A flash loan succeeds only if the borrower's reply to `onFlashLoan` begins with the magic word, and a reply of
exactly the magic word is read as such. -/
theorem C101_flash_loan (D : Decoder) (E : FlashMint.Env) (s s' : Erc20.State) (hs : Spec.FlashMint.Reachable E s)
    (r t : Address) (v : U256) (cb : List FlashMint.Action) (reply : Outcome Unit) :
    (FlashMint.exec E s (.loan r t v cb (flashReply D reply)) = .ok s' →
      ∃ data, reply = .returned () data ∧ word E.magic <+: data) ∧
    (reply = .returned () (word E.magic) → flashReply D reply = some E.magic) := by
  constructor
  · intro h
    have ha := (Verif.Props.FlashMint.C15_loan_is_repaid E s s' hs r t v cb _ h).2.2.1
    cases reply with
    | reverted d => cases ha
    | returned u data =>
      refine ⟨data, rfl, ?_⟩
      simp only [flashReply] at ha
      split at ha
      · rename_i y hy
        cases ha
        exact read_one_inv rfl hy
      · cases ha
  · rintro rfl
    simp only [flashReply]
    rw [show D.read [.bytes32] (word E.magic) = some [.bytes32 E.magic] from read_one (v := .bytes32 E.magic) rfl]

/-! ## The library's token at the other end -/

theorem encodeBe_range (n : Nat) : ∀ x, SafeErc20.encodeBe n x =
    (List.range n).map fun i => BitVec.ofNat 8 (x / 256 ^ (n - 1 - i)) := by
  induction n with
  | zero => intro x; rfl
  | succ n ih =>
    intro x
    rw [SafeErc20.encodeBe, ih, List.range_succ, List.map_append]
    congr 1
    · refine List.map_congr_left fun i hi => ?_
      have hi := List.mem_range.mp hi
      rw [Nat.div_div_eq_div_mul, ← pow_succ', show n - 1 - i + 1 = n + 1 - 1 - i by omega]
    · simp

theorem encodeWord_eq (w : U256) : SafeErc20.encodeWord w = word w := encodeBe_range 32 w.toNat

theorem basic_mem : (⟨Router.basicToken, Spec.Router.basicToken,
    [Spec.Router.erc20, Spec.Router.erc20Metadata]⟩ : Spec.Router.Entry) ∈ Spec.Router.contracts := by
  simp [Spec.Router.contracts]

set_option maxRecDepth 100000 in
theorem basic_in_table : ∀ r ∈ Spec.Router.basicToken, r.1 ∈ Props.Router.table.map Prod.fst := by decide +kernel

theorem run_basic (D : Decoder) (m : Entry.Strings) (caller : Address) (s : Erc20.State) (msg : Message) {t : String}
    {f : Router.Fn} (hs : (signatureOf msg, t, f.rustName) ∈ Spec.Router.basicToken)
    (hr : Props.Router.routeSig Router.basicToken (signatureOf msg) = some (t, f))
    (ht : msg.args.map Val.type = flat f.args) (hl : (encode msg.args).length < 2 ^ 256) :
    Entry.basicTokenEntry keccak256 D m caller s 0#256 (msg.bytes keccak256) =
      outcome (Entry.basicToken keccak256 m caller t f.rustName msg.args s) := by
  rw [bytes_sig]
  exact entry_call basic_mem D (Entry.basicToken keccak256 m caller) s (basic_in_table _ hs) hr ht hl

theorem small {vs : List Val} {ws : List U256} (h : vs.map Val.code = ws.map .inl) (hl : ws.length < 8) :
    (encode vs).length < 2 ^ 256 := by
  rw [encode_static h, flatMap_word_length]; omega

set_option maxRecDepth 100000 in
/-- **C101** Sent as bytes to the library's own token, `transfer`, `transferFrom`, `approve`, `allowance` and `balanceOf` do
what the token's functions do for the sender. -/
theorem C101_token_round_trip (D : Decoder) (m : Entry.Strings) (caller a b : Address) (v : U256) (s : Erc20.State) :
    let send := fun msg : Message => Entry.basicTokenEntry keccak256 D m caller s 0#256 (msg.bytes keccak256)
    let done := fun x : Except Erc20.Err Erc20.State => match x with
      | .ok s' => Outcome.returned s' (word 1#256)
      | .error e => .reverted (((Revert.erc20 e).data keccak256).getD [])
    send (.transfer b v) = done (Erc20.transfer s caller b v) ∧
    send (.transferFrom a b v) = done (Erc20.transferFrom s caller a b v) ∧
    send (.approve b v) = done (Erc20.approve s caller b v) ∧
    send (.allowance a b) = .returned s (word (Erc20.allowance s a b)) ∧
    send (.balanceOf a) = .returned s (word (Erc20.balanceOf s a)) := by
  intro send done
  have fin : ∀ x : Except Erc20.Err Erc20.State,
      outcome (Entry.finish keccak256 Revert.erc20 [.bool true] x) = done x := by
    intro x
    cases x with
    | error e => rfl
    | ok s' =>
      show Outcome.returned s' (encode [.bool true]) = .returned s' (word 1#256)
      rw [encode_static (ws := [1#256]) rfl]; simp
  have one : ∀ w : U256, encode [.uint256 w] = word w := by
    intro w
    rw [encode_static (ws := [w]) rfl]; simp
  refine ⟨?_, ?_, ?_, ?_, ?_⟩
  · exact (run_basic D m caller s (.transfer b v) (f := ⟨"transfer", none, [.address, .uint256]⟩) (t := "Erc20") (by simp [signatureOf, Spec.Router.basicToken])
      rfl rfl (small (ws := [addr b, v]) (by simp [Message.args, address_code]; rfl) (by simp))).trans (fin _)
  · exact (run_basic D m caller s (.transferFrom a b v) (f := ⟨"transfer_from", none, [.address, .address, .uint256]⟩)
      (t := "Erc20") (by simp [signatureOf, Spec.Router.basicToken]) rfl rfl (small (ws := [addr a, addr b, v]) (by simp [Message.args, address_code]; rfl)
        (by simp))).trans (fin _)
  · exact (run_basic D m caller s (.approve b v) (f := ⟨"approve", none, [.address, .uint256]⟩) (t := "Erc20") (by simp [signatureOf, Spec.Router.basicToken])
      rfl rfl (small (ws := [addr b, v]) (by simp [Message.args, address_code]; rfl) (by simp))).trans (fin _)
  · exact (run_basic D m caller s (.allowance a b) (f := ⟨"allowance", none, [.address, .address]⟩) (t := "Erc20") (by simp [signatureOf, Spec.Router.basicToken])
      rfl rfl (small (ws := [addr a, addr b]) (by simp [Message.args, address_code]) (by simp))).trans
        (congrArg (Outcome.returned s) (one _))
  · exact (run_basic D m caller s (.balanceOf a) (f := ⟨"balance_of", none, [.address]⟩) (t := "Erc20") (by simp [signatureOf, Spec.Router.basicToken])
      rfl rfl (small (ws := [addr a]) (by simp [Message.args, address_code]) (by simp))).trans
        (congrArg (Outcome.returned s) (one _))

theorem token_ext {τ : Type} {a b : SafeErc20.Token τ} (h : a.hasCode = b.hasCode)
    (hc : ∀ s r, a.call s r = b.call s r) : a = b := by
  cases a; cases b
  simp only [SafeErc20.Token.mk.injEq]
  exact ⟨h, funext fun s => funext fun r => hc s r⟩

theorem standard_of_replies {K : Hash} {prog : Erc20.State → Bytes → Outcome Erc20.State} {self_ : Address}
    {data : Erc20.Err → Bytes}
    (h : ∀ (a b : Address) (v : U256) (s : Erc20.State),
      let done := fun x : Except Erc20.Err Erc20.State => match x with
        | .ok s' => Outcome.returned s' (word 1#256)
        | .error e => .reverted (data e)
      prog s ((Message.transfer b v).bytes K) = done (Erc20.transfer s self_ b v) ∧
      prog s ((Message.transferFrom a b v).bytes K) = done (Erc20.transferFrom s self_ a b v) ∧
      prog s ((Message.approve b v).bytes K) = done (Erc20.approve s self_ b v) ∧
      prog s ((Message.allowance a b).bytes K) = .returned s (word (Erc20.allowance s a b))) :
    rawToken K prog = SafeErc20.standardToken self_ := by
  have ht : SafeErc20.encodeTrue = word 1#256 := encodeWord_eq _
  refine token_ext rfl fun s r => ?_
  cases r with
  | transfer dst v =>
    have h := (h 0#160 dst v s).1
    simp only [rawToken, SafeErc20.standardToken, request, h, ht]
    cases Erc20.transfer s self_ dst v <;> rfl
  | transferFrom src dst v =>
    have h := (h src dst v s).2.1
    simp only [rawToken, SafeErc20.standardToken, request, h, ht]
    cases Erc20.transferFrom s self_ src dst v <;> rfl
  | approve sp v =>
    have h := (h 0#160 sp v s).2.2.1
    simp only [rawToken, SafeErc20.standardToken, request, h, ht]
    cases Erc20.approve s self_ sp v <;> rfl
  | allowance o sp =>
    have h := (h o sp 0#256 s).2.2.2
    simp only [rawToken, SafeErc20.standardToken, request, h, encodeWord_eq]

/-- **C101** So what `SafeErc20` sees of the token through bytes is the token: everything proved of its calls on the
library's ERC-20 holds of the exchange of bytes. -/
theorem C101_standard_token (D : Decoder) (m : Entry.Strings) (self_ : Address) :
    rawToken keccak256 (fun s b => Entry.basicTokenEntry keccak256 D m self_ s 0#256 b) =
      SafeErc20.standardToken self_ :=
  standard_of_replies (data := fun e => ((Revert.erc20 e).data keccak256).getD []) fun a b v s =>
    let h := C101_token_round_trip D m self_ a b v s
    ⟨h.1, h.2.1, h.2.2.1, h.2.2.2.1⟩

/-- **C101** And `balanceOf`, asked by the vault, the wrapper or the vesting wallet, gives the balance. -/
theorem C101_balance_read (D : Decoder) (m : Entry.Strings) (self_ a : Address) (s : Erc20.State) :
    uintReply D (Entry.basicTokenEntry keccak256 D m self_ s 0#256 ((Message.balanceOf a).bytes keccak256)) =
      some (Erc20.balanceOf s a) := by
  obtain ⟨_, _, _, _, h⟩ := C101_token_round_trip D m self_ a 0#160 0#256 s
  simp only at h
  rw [h]
  simp only [uintReply]
  rw [show D.read [.uint256] (word (Erc20.balanceOf s a)) = some [.uint256 (Erc20.balanceOf s a)] from
    read_one (v := .uint256 _) rfl]

/-! ## The hypotheses are met -/

/-- Accounts for the examples. -/
def alice : Address := 0xa11ce#160
/-- Another. -/
def vault : Address := 0xfa017#160

/-- A contract that answers every message with the magic word of `onERC721Received`. -/
def friendly (b : Bytes) : Outcome Unit :=
  if [0x15#8, 0x0b#8, 0x7a#8, 0x02#8] <+: b then .returned () (magicWord 0x15#8 0x0b#8 0x7a#8 0x02#8) else .reverted [1#8]

/-- One that refuses. -/
def hostile (_ : Bytes) : Outcome Unit := .reverted [0xde#8, 0xad#8]

/-- A token of Alice's. -/
def nft : Erc721.State := match Erc721.mint Erc721.init alice 7#256 with | .ok s => s | .error _ => Erc721.init

theorem nft_moves : (Erc721.transferFrom nft alice alice vault 7#256).toOption.isSome = true := by decide +kernel

-- C101_erc721_receiver: the vault gets the token
example (D : Decoder) (data : Bytes) : ∃ s',
    Erc721.safeTransferFromWithData (receivers721 keccak256 D fun a => if a = vault then some friendly else none) nft alice
      alice vault 7#256 data = .ok s' := by
  rw [(C101_erc721_receiver D _ nft nft alice alice vault 7#256 data friendly (by simp)).2 (by simp [friendly])]
  have := nft_moves
  cases hx : Erc721.transferFrom nft alice alice vault 7#256 with
  | ok s' => exact ⟨s', rfl⟩
  | error e => rw [hx] at this; cases this

-- C101_erc721_revert: the reason is passed on
example (D : Decoder) (data : Bytes) :
    Erc721.safeTransferFromWithData (receivers721 keccak256 D fun a => if a = vault then some hostile else none) nft alice
      alice vault 7#256 data = .error (.invalidReceiverWithReason [0xde#8, 0xad#8]) := by
  have := nft_moves
  cases hx : Erc721.transferFrom nft alice alice vault 7#256 with
  | ok s' => exact C101_erc721_revert D _ nft s' alice alice vault 7#256 data _ hostile (by simp) hx (by simp) rfl
  | error e => rw [hx] at this; cases this

-- C101_token_messages: a transfer of 5 as 68 bytes
example : (Message.transfer alice 5#256).bytes keccak256 =
    [0xa9#8, 0x05#8, 0x9c#8, 0xbb#8] ++ List.replicate 29 0#8 ++ [0x0a#8, 0x11#8, 0xce#8] ++ List.replicate 31 0#8 ++ [5#8] := by
  rw [(C101_token_messages 0#160 alice 5#256 []).1]
  decide +kernel

-- C101_unambiguous: the approval of the same account and amount is another message
example : (Message.transfer alice 5#256).bytes keccak256 ≠ (Message.approve alice 5#256).bytes keccak256 := fun h =>
  absurd (C101_unambiguous (small (ws := [addr alice, 5#256]) (by simp [Message.args, address_code]; rfl) (by simp))
    (small (ws := [addr alice, 5#256]) (by simp [Message.args, address_code]; rfl) (by simp)) h) (by decide)

end Verif.Props.Calls
