import Verif.Spec.Constructors
import Verif.Proofs.Constructors
/-! # C99: deployment by the Solidity constructors -/

namespace Verif.Props.Constructors
open Verif Verif.Storage Verif.Constructors Verif.Spec.Storage Verif.Spec.Constructors
open Verif.Proofs.Storage Verif.Props.Storage Verif.Proofs.Constructors

/-- C99: for every example, each variable of the Rust contract is at the same place in storage as the variable of the
Solidity contract it is deployed with, and has the same type. -/
theorem C99_same_layout : ∀ c ∈ deployed, agree (leaves c.1 0) (leaves c.2 0) = true := by decide

/-- The lists are not empty: `examples/erc4626` has eight variables, three of them in one word. -/
example : (leaves erc4626Example 0).map (fun v => (v.1, v.2.1)) =
    [(0, 0), (1, 0), (2, 0), (3, 0), (4, 0), (5, 0), (5, 20), (5, 21)] := by decide

theorem assign_same {K : Hash} {t t' : Ty} {p p' : Path} {v : U256} {ws ws' : List (Path × U256)} {st : Words} {l : Loc}
    (h : cell K t p = some l) (h' : cell K t' p' = some l)
    (hw : assign K t ws (write K st l v) = assign K t' ws' (write K st l v)) :
    assign K t ((p, v) :: ws) st = assign K t' ((p', v) :: ws') st := by
  rw [assign, assign, h, h', Option.bind_some, Option.bind_some, hw]

/-! ## Every constructor, in terms of the Rust contract -/

/-- C99: `examples/erc20`: no cap of 0; else name, symbol and cap of the Rust contract are set, and it is not paused. -/
theorem C99_erc20 (K : Hash) (name symbol : Bytes) (cap : U256) :
    ((erc20Init name symbol cap).bind fun ws => assign K erc20Sol ws fresh) =
    if cap = 0#256 then none
    else assign K erc20Example (text [.field "metadata", .field "metadata", .field "name"] name ++
      text [.field "metadata", .field "metadata", .field "symbol"] symbol ++
      [([.field "capped", .field "cap"], cap), ([.field "pausable", .field "paused"], 0#256)]) fresh := by
  unfold erc20Init
  split
  · rfl
  · rw [Option.bind_some, assign_append, assign_append, assign_append, assign_append]
    rw [text_same (K := K) (t' := erc20Example) (p' := [.field "metadata", .field "metadata", .field "name"])
      (l := ⟨none, 3, 0, .string⟩) rfl rfl rfl]
    congr 1
    · congr 1
      funext st
      exact text_same (l := ⟨none, 4, 0, .string⟩) rfl rfl rfl _ _

/-- C99: `examples/basic/token`: name and symbol are set. -/
theorem C99_basic_token (K : Hash) (name symbol : Bytes) :
    ((basicTokenInit name symbol).bind fun ws => assign K basicTokenSol ws fresh) =
    assign K basicToken (text [.field "metadata", .field "metadata", .field "name"] name ++
      text [.field "metadata", .field "metadata", .field "symbol"] symbol) fresh := by
  unfold basicTokenInit
  rw [Option.bind_some, assign_append, assign_append]
  rw [text_same (K := K) (t' := basicToken) (p' := [.field "metadata", .field "metadata", .field "name"])
    (l := ⟨none, 3, 0, .string⟩) rfl rfl rfl]
  congr 1
  funext st
  exact text_same (l := ⟨none, 4, 0, .string⟩) rfl rfl rfl _ _

/-- C99: `examples/erc4626`: name, symbol, asset and offset are set, and the underlying token is taken to have 18
decimals. -/
theorem C99_erc4626 (K : Hash) (name symbol : Bytes) (asset : Address) (offset : U8) :
    ((erc4626Init name symbol asset offset).bind fun ws => assign K erc4626Sol ws fresh) =
    assign K erc4626Example (text [.field "metadata", .field "metadata", .field "name"] name ++
      text [.field "metadata", .field "metadata", .field "symbol"] symbol ++
      [([.field "erc4626", .field "asset"], asset.setWidth 256),
       ([.field "erc4626", .field "decimals_offset"], offset.setWidth 256),
       ([.field "erc4626", .field "underlying_decimals"], 18#256)]) fresh := by
  unfold erc4626Init
  rw [Option.bind_some, assign_append, assign_append, assign_append, assign_append]
  rw [text_same (K := K) (t' := erc4626Example) (p' := [.field "metadata", .field "metadata", .field "name"])
    (l := ⟨none, 3, 0, .string⟩) rfl rfl rfl]
  congr 1
  · congr 1
    funext st
    exact text_same (l := ⟨none, 4, 0, .string⟩) rfl rfl rfl _ _

/-- C99: `examples/erc721-metadata`: name, symbol and base URI are set. -/
theorem C99_erc721_metadata (K : Hash) (name symbol baseUri : Bytes) :
    ((erc721MetadataInit name symbol baseUri).bind fun ws => assign K erc721MetadataSol ws fresh) =
    assign K erc721MetadataExample (text [.field "metadata", .field "metadata", .field "name"] name ++
      text [.field "metadata", .field "metadata", .field "symbol"] symbol ++
      text [.field "metadata", .field "base_uri"] baseUri) fresh := by
  unfold erc721MetadataInit
  rw [Option.bind_some, assign_append, assign_append, assign_append, assign_append]
  rw [text_same (K := K) (t' := erc721MetadataExample) (p' := [.field "metadata", .field "metadata", .field "name"])
    (l := ⟨none, 4, 0, .string⟩) rfl rfl rfl]
  congr 1
  · congr 1
    funext st
    exact text_same (l := ⟨none, 5, 0, .string⟩) rfl rfl rfl _ _
  · funext st
    exact text_same (l := ⟨none, 6, 0, .string⟩) rfl rfl rfl _ _

/-- C99: `examples/erc1155-metadata-uri`: the URI is set. -/
theorem C99_erc1155_metadata_uri (K : Hash) (uri : Bytes) :
    ((erc1155MetadataUriInit uri).bind fun ws => assign K erc1155MetadataUriSol ws fresh) =
    assign K erc1155MetadataUriExample (text [.field "metadata_uri", .field "uri"] uri) fresh :=
  text_same (l := ⟨none, 2, 0, .string⟩) rfl rfl rfl _ _

/-- The place of the flag that says whether an account has the default admin role. -/
def roleLoc (K : Hash) (account : U256) : Loc :=
  ⟨some (be32 account ++ be32 (Loc.slot K ⟨some (be32 0#256 ++ be32 (Loc.slot K ⟨none, 3, 0, .map roleData⟩)), 0, 0,
    .map Storage.bool⟩)), 0, 0, Storage.bool⟩

/-- C99: `examples/access-control`: the deployer has the default admin role. -/
theorem C99_access_control (K : Hash) (sender : Address) :
    ((accessControlInit K sender).bind fun ws => assign K accessControlSol ws fresh) =
    assign K accessControlExample [([.field "access", .field "roles", .key 0#256, .field "has_role",
      .key (sender.setWidth 256)], 1#256)] fresh := by
  unfold accessControlInit Constructors.get
  have : (cell K accessControlSol (roleCell 0#256 (sender.setWidth 256))).map (fun l => Storage.read K fresh l) = some 0#256 := by
    simp only [read_fresh]
    rfl
  simp only [this, if_true, Option.bind_some]
  exact assign_same (l := roleLoc K (sender.setWidth 256)) rfl rfl rfl

/-- C99: `examples/erc1155`: not paused. -/
theorem C99_erc1155 (K : Hash) : (erc1155Init.bind fun ws => assign K erc1155Sol ws fresh) =
    assign K erc1155Example [([.field "pausable", .field "paused"], 0#256)] fresh := rfl

/-- C99: `examples/erc20-flash-mint`: fee and receiver of the fee are set. -/
theorem C99_flash_mint (K : Hash) (receiver : Address) (fee : U256) :
    ((flashMintInit receiver fee).bind fun ws => assign K flashMintSol ws fresh) =
    assign K erc20FlashMintExample [([.field "flash_mint", .field "flash_fee_receiver_address"], receiver.setWidth 256),
      ([.field "flash_mint", .field "flash_fee_value"], fee)] fresh := rfl

/-- C99: `examples/erc20-permit`: nothing is set. -/
theorem C99_permit (K : Hash) : (permitInit.bind fun ws => assign K permitSol ws fresh) =
    assign K erc20PermitExample [] fresh := rfl

/-- C99: `examples/erc20-wrapper`: a contract cannot wrap itself; else the underlying token and its decimals are set. -/
theorem C99_erc20_wrapper (K : Hash) (this underlying : Address) (decimals : U8) :
    ((erc20WrapperInit this underlying decimals).bind fun ws => assign K erc20WrapperSol ws fresh) =
    if underlying = this then none
    else assign K erc20WrapperExample [([.field "erc20_wrapper", .field "underlying"], underlying.setWidth 256),
      ([.field "erc20_wrapper", .field "underlying_decimals"], decimals.setWidth 256)] fresh := by
  unfold erc20WrapperInit
  split <;> rfl

/-- C99: `examples/erc721-wrapper`: the underlying token is set. -/
theorem C99_erc721_wrapper (K : Hash) (underlying : Address) :
    ((erc721WrapperInit underlying).bind fun ws => assign K erc721WrapperSol ws fresh) =
    assign K erc721WrapperExample [([.field "erc721_wrapper", .field "underlying"], underlying.setWidth 256)] fresh := rfl

/-- C99: `examples/erc721`: not paused. -/
theorem C99_erc721 (K : Hash) : (erc721Init.bind fun ws => assign K erc721Sol ws fresh) =
    assign K erc721Example [([.field "pausable", .field "paused"], 0#256)] fresh := rfl

/-- C99: `examples/ownable`: the owner is not zero and is set. -/
theorem C99_ownable (K : Hash) (owner : Address) :
    ((ownableInit owner).bind fun ws => assign K ownableSol ws fresh) =
    if owner = 0#160 then none
    else assign K ownableExample [([.field "ownable", .field "owner"], owner.setWidth 256)] fresh := by
  unfold ownableInit
  split <;> rfl

/-- C99: `examples/ownable-two-step`: the owner is not zero and is set, and there is no pending owner. -/
theorem C99_ownable_two_step (K : Hash) (owner : Address) :
    ((ownableInit owner).bind fun ws => assign K ownableTwoStepSol ws fresh) =
    if owner = 0#160 then none
    else assign K ownableTwoStepExample [([.field "ownable", .field "ownable", .field "owner"], owner.setWidth 256)] fresh := by
  unfold ownableInit
  split <;> rfl

/-- C99: `examples/vesting-wallet`: the beneficiary is not zero and is set, and so are start and duration, which share a
word. -/
theorem C99_vesting_wallet (K : Hash) (beneficiary : Address) (start duration : BitVec 64) :
    ((vestingWalletInit beneficiary start duration).bind fun ws => assign K vestingWalletSol ws fresh) =
    if beneficiary = 0#160 then none
    else assign K vestingWalletExample
      [([.field "vesting_wallet", .field "ownable", .field "owner"], beneficiary.setWidth 256),
       ([.field "vesting_wallet", .field "start"], start.setWidth 256),
       ([.field "vesting_wallet", .field "duration"], duration.setWidth 256)] fresh := by
  unfold vestingWalletInit
  split <;> rfl

/-! ## What is read afterwards -/

theorem left_final (q : Path) : ∀ (ws : List (Path × U256)) (a : Option U256), left q ws (a.getD 0#256) = (final q ws a).getD 0#256
  | [], _ => rfl
  | w :: ws, a => by
    unfold left final
    rw [List.foldl_cons, List.foldl_cons]
    have := left_final q ws (if w.1 = q then some w.2 else a)
    unfold left final at this
    rw [← this]
    congr 1
    split <;> rfl

theorem fine_of {K : Hash} {n : Nat} {t : Ty} {p : Path} (h : Cell K n t p) : Fine K n t p := by
  obtain ⟨l, hl, h1, h2⟩ := h
  intro m hm
  cases hl.symm.trans hm
  exact ⟨h1, h2⟩

/-- C99: after the assignments of a constructor, a cell holds the last value assigned to it, cut to its size, and 0 if none
was, unless hash values on the way to it and to an assigned cell coincide. -/
theorem C99_reads (K : Hash) {n : Nat} (hn : n < 2 ^ 256) {t : Ty} (ht : Ty.ok t = true) {ws : List (Path × U256)} {st : Words}
    (h : assign K t ws fresh = some st) (hw : ∀ w ∈ ws, Cell K n t w.1) {q : Path} {m : Loc} (hm : cell K t q = some m)
    (hq : Cell K n t q) (hc : ∀ w ∈ ws, w.1 ≠ q → ¬ Coincidence K n t w.1 q) :
    Storage.read K st m = left q ws 0#256 &&& mask m.ty.width := by
  rw [assign_read K hn ht hm (fine_of hq) h (fun w hw' => fine_of (hw w hw')) hc none (by rw [read_fresh]; simp)]
  rw [← left_final q ws none]
  rfl

theorem mapM_map {α β : Type} {f : α → Option β} {g : α → β} : ∀ {l : List α} (_ : ∀ a ∈ l, f a = some (g a)),
    l.mapM f = some (l.map g)
  | [], _ => rfl
  | a :: l, h => by
    rw [List.mapM_cons, h a List.mem_cons_self, mapM_map fun b hb => h b (List.mem_cons_of_mem _ hb)]
    rfl

/-- The cells of a string. -/
def textCells (p : Path) (bs : Bytes) : List Path := (text p bs).map fun w => w.1

/-- A string is read from its words. -/
theorem getText_of {K : Hash} {t : Ty} {st : Words} {p : Path} {bs : Bytes} (hb : bs.length < 2 ^ 255) (hhead : get K t st p = some (head bs))
    (hchunk : ¬ bs.length < 32 → ∀ i < (bs.length + 31) / 32, get K t st (p ++ [.index i]) = some (chunk bs i)) :
    getText K t st p = some bs := by
  unfold getText
  rw [hhead]
  show (if (head bs).getLsbD 0 = true then _ else _) = _
  by_cases hlen : bs.length < 32
  · have e := short_len hlen
    have e0 : (head bs).getLsbD 0 = false := by
      have := congrArg (fun x => BitVec.getLsbD x 0) e
      rw [BitVec.getLsbD_setWidth, BitVec.getLsbD_ofNat] at this
      simpa using this
    rw [if_neg (by rw [e0]; decide), e, short_head hlen]
    have e2 : ((BitVec.ofNat 8 (2 * bs.length)) >>> 1).toNat = bs.length := by
      rw [BitVec.toNat_ushiftRight, BitVec.toNat_ofNat, Nat.mod_eq_of_lt (by omega), Nat.shiftRight_one]
      omega
    rw [e2, List.append_assoc, List.take_left]
  · have eh : head bs = BitVec.ofNat 256 (2 * bs.length + 1) := by unfold head; rw [if_neg hlen]
    have e0 : (head bs).getLsbD 0 = true := by
      rw [eh, BitVec.getLsbD_ofNat]
      simp
    rw [if_pos e0]
    have e2 : (head bs >>> 1).toNat = bs.length := by
      rw [eh, BitVec.toNat_ushiftRight, BitVec.toNat_ofNat, Nat.mod_eq_of_lt (by omega), Nat.shiftRight_one]
      omega
    simp only [e2]
    have hm : (List.range ((bs.length + 31) / 32)).mapM (fun i => get K t st (p ++ [.index i])) =
        some ((List.range ((bs.length + 31) / 32)).map (chunk bs)) := by
      exact mapM_map fun i hi => hchunk hlen i (List.mem_range.mp hi)
    rw [hm]
    show some _ = _
    rw [(chunks bs _).2, List.take_of_length_le (by omega)]

/-- C99: a string is read as it was assigned, however long it is, unless hash values on the way to assigned cells
coincide. -/
theorem C99_text (K : Hash) {n : Nat} (hn : n < 2 ^ 256) {t : Ty} (ht : Ty.ok t = true) {pre post : List (Path × U256)}
    {p : Path} {bs : Bytes} {st : Words} {l : Loc} (hl : cell K t p = some l) (hs : l.ty = .string)
    (hb : bs.length < 2 ^ 255) (h : assign K t (pre ++ text p bs ++ post) fresh = some st)
    (hw : ∀ w ∈ pre ++ text p bs ++ post, Cell K n t w.1)
    (hc : Clear K n t ((pre ++ text p bs ++ post).map fun w => w.1)) (hpost : ∀ w ∈ post, w.1 ∉ textCells p bs) :
    getText K t st p = some bs := by
  have key : ∀ q ∈ textCells p bs, ∀ (m : Loc) (v : U256), cell K t q = some m → m.ty.width = 32 →
      final q (text p bs) (final q pre none) = some v → get K t st q = some v := by
    intro q hq m v hm h32 hv
    unfold Constructors.get
    rw [hm, Option.map_some]
    congr 1
    obtain ⟨w, hw1, rfl⟩ := List.mem_map.mp hq
    have hmem : w ∈ pre ++ text p bs ++ post := List.mem_append_left _ (List.mem_append_right _ hw1)
    rw [assign_read K hn ht hm (fine_of (hw w hmem)) h (fun w' hw' => fine_of (hw w' hw'))
      (fun w' hw' hne => hc _ (List.mem_map_of_mem hw') _ (List.mem_map_of_mem hmem) hne) none (by rw [read_fresh]; simp),
      final_append, final_append, hv, final_none fun w' hw' e => hpost w' hw' (e ▸ hq), h32, mask32]
    rfl
  have hhead : get K t st p = some (head bs) := by
    refine key p ?_ l _ hl (by rw [hs]; rfl) (final_text_head p bs _)
    unfold textCells text
    split <;> simp
  refine getText_of hb hhead fun hlen i hi => key _ ?_ _ _ (cell_index hl hs i) rfl (final_text_chunk p hlen hi _)
  unfold textCells text
  rw [if_neg hlen, List.map_cons, List.map_map]
  exact List.mem_cons_of_mem _ (List.mem_map.mpr ⟨i, List.mem_range.mpr hi, rfl⟩)

/-- The cells of a string that is not longer than `32 * n` bytes. -/
theorem text_cell {K : Hash} {n : Nat} {t : Ty} {p : Path} {l : Loc} (hl : cell K t p = some l) (hs : l.ty = .string)
    (hw : Within K n t p) {bs : Bytes} (hb : bs.length ≤ 32 * n) : ∀ w ∈ text p bs, Cell K n t w.1 := by
  intro w hw'
  rcases text_mem hw' with e | ⟨i, hi, e⟩
  · rw [e]
    exact ⟨l, hl, by rw [hs]; trivial, hw⟩
  · rw [e]
    refine ⟨_, cell_index hl hs i, trivial, ?_⟩
    intro m hm
    rw [visited_append K p _ hl] at hm
    rcases List.mem_append.mp hm with hm | hm
    · exact hw m hm
    · obtain ⟨b, d, lo, ty⟩ := l
      cases hs
      rw [visited] at hm
      have : m = element (Loc.slot K ⟨b, d, lo, .string⟩) (.scalar 32) i := by
        rcases List.mem_cons.mp hm with h | h
        · exact h
        · cases h
      rw [this]
      show 1 * (i / 1) ≤ n
      omega

theorem within_disps {K : Hash} {n : Nat} {t : Ty} {p : Path} {ds : List Nat}
    (h : (visited K ⟨none, 0, 0, t⟩ p).map (fun l => l.disp) = ds) (hd : ∀ d ∈ ds, d ≤ n) : Within K n t p := by
  intro l hl
  exact hd _ (h ▸ List.mem_map_of_mem hl)

/-- Where the ERC-20 example keeps its name. -/
def namePath : Path := [.field "metadata", .field "metadata", .field "name"]
/-- Where the ERC-20 example keeps its symbol. -/
def symbolPath : Path := [.field "metadata", .field "metadata", .field "symbol"]
/-- Where the ERC-20 example keeps its cap. -/
def capPath : Path := [.field "capped", .field "cap"]
/-- Where the ERC-20 example keeps the pause flag. -/
def pausedPath : Path := [.field "pausable", .field "paused"]

/-- The cells the constructor of the ERC-20 example assigns. -/
def erc20Cells (name symbol : Bytes) : List Path :=
  textCells namePath name ++ textCells symbolPath symbol ++ [capPath, pausedPath]

/-- C99: `examples/erc20` after deployment with a name, a symbol and a cap: the Rust contract reads them as they were given, is
not paused, and reads 0 from any other cell - no balances, no allowances, no supply - unless hash values coincide. -/
theorem C99_erc20_deployed (K : Hash) {n : Nat} (h6 : 6 ≤ n) (hn : n < 2 ^ 250) {name symbol : Bytes} {cap : U256} {ws : List (Path × U256)}
    {st : Words} (hi : erc20Init name symbol cap = some ws) (h : assign K erc20Sol ws fresh = some st)
    (hname : name.length ≤ 32 * n) (hsym : symbol.length ≤ 32 * n)
    (hc : Clear K n erc20Example (erc20Cells name symbol)) :
    cap ≠ 0#256 ∧ getText K erc20Example st namePath = some name ∧ getText K erc20Example st symbolPath = some symbol ∧
    Constructors.get K erc20Example st capPath = some cap ∧ Constructors.get K erc20Example st pausedPath = some 0#256 ∧
    ∀ q m, cell K erc20Example q = some m → Cell K n erc20Example q → q ∉ erc20Cells name symbol →
      (∀ p ∈ erc20Cells name symbol, ¬ Coincidence K n erc20Example p q) → Storage.read K st m = 0#256 := by
  have hcap : cap ≠ 0#256 := by
    intro e
    unfold erc20Init at hi
    rw [if_pos e] at hi
    cases hi
  have h' := C99_erc20 K name symbol cap
  rw [hi, Option.bind_some, h, if_neg hcap] at h'
  have hn' : n < 2 ^ 256 := Nat.lt_trans hn (by decide)
  have ht : Ty.ok erc20Example = true := by decide
  generalize hW : text namePath name ++ text symbolPath symbol ++ [(capPath, cap), (pausedPath, 0#256)] = W at *
  have h2 : assign K erc20Example W fresh = some st := by rw [← hW]; exact h'.symm
  have hcells : W.map (fun w => w.1) = erc20Cells name symbol := by
    rw [← hW]
    unfold erc20Cells textCells
    simp
  have within : ∀ p ∈ [namePath, symbolPath, capPath, pausedPath], Within K n erc20Example p := by
    intro p hp
    simp only [List.mem_cons, List.not_mem_nil, or_false] at hp
    rcases hp with rfl | rfl | rfl | rfl
    · exact within_disps (ds := [3, 3, 3]) rfl (by simp; omega)
    · exact within_disps (ds := [3, 3, 4]) rfl (by simp; omega)
    · exact within_disps (ds := [5, 5]) rfl (by simp; omega)
    · exact within_disps (ds := [6, 6]) rfl (by simp; omega)
  have cells : ∀ w ∈ W, Cell K n erc20Example w.1 := by
    intro w hw
    rw [← hW] at hw
    rcases List.mem_append.mp hw with hw | hw
    · rcases List.mem_append.mp hw with hw | hw
      · exact text_cell (l := ⟨none, 3, 0, .string⟩) rfl rfl (within _ (by simp)) hname w hw
      · exact text_cell (l := ⟨none, 4, 0, .string⟩) rfl rfl (within _ (by simp)) hsym w hw
    · simp only [List.mem_cons, List.not_mem_nil, or_false] at hw
      rcases hw with rfl | rfl
      · exact ⟨_, rfl, trivial, within _ (by simp)⟩
      · exact ⟨_, rfl, trivial, within _ (by simp)⟩
  have notText : ∀ (p q : Path) (bs : Bytes), q ≠ p → (∀ i, q ≠ p ++ [.index i]) → q ∉ textCells p bs := by
    intro p q bs h1 h2 hm
    obtain ⟨w, hw, rfl⟩ := List.mem_map.mp hm
    rcases text_mem hw with e | ⟨i, _, e⟩
    · exact h1 e
    · exact h2 i e
  have clear : ∀ q ∈ erc20Cells name symbol, ∀ w ∈ W, w.1 ≠ q → ¬ Coincidence K n erc20Example w.1 q := by
    intro q hq w hw hne
    exact hc _ (hcells ▸ List.mem_map_of_mem hw) _ hq hne
  refine ⟨hcap, ?_, ?_, ?_, ?_, ?_⟩
  · refine C99_text K hn' ht (pre := []) (post := text symbolPath symbol ++ [(capPath, cap), (pausedPath, 0#256)])
      (l := ⟨none, 3, 0, .string⟩) rfl rfl (by omega) (by rw [List.nil_append, ← List.append_assoc, hW]; exact h2)
      (by rw [List.nil_append, ← List.append_assoc, hW]; exact cells)
      (by rw [List.nil_append, ← List.append_assoc, hW, hcells]; exact hc) ?_
    intro w hw
    rcases List.mem_append.mp hw with hw | hw
    · rcases text_mem hw with e | ⟨i, _, e⟩
      · rw [e]
        exact notText _ _ _ (by decide) (by intro i; unfold symbolPath namePath; simp)
      · rw [e]
        exact notText _ _ _ (by unfold symbolPath namePath; simp) (by intro j; unfold symbolPath namePath; simp)
    · simp only [List.mem_cons, List.not_mem_nil, or_false] at hw
      rcases hw with rfl | rfl
      · exact notText namePath capPath _ (by decide) (by intro i; unfold capPath namePath; simp)
      · exact notText _ _ _ (by decide) (by intro i; unfold pausedPath namePath; simp)
  · refine C99_text K hn' ht (pre := text namePath name) (post := [(capPath, cap), (pausedPath, 0#256)])
      (l := ⟨none, 4, 0, .string⟩) rfl rfl (by omega) (by rw [hW]; exact h2) (by rw [hW]; exact cells)
      (by rw [hW, hcells]; exact hc) ?_
    intro w hw
    simp only [List.mem_cons, List.not_mem_nil, or_false] at hw
    rcases hw with rfl | rfl
    · exact notText symbolPath capPath _ (by decide) (by intro i; unfold capPath symbolPath; simp)
    · exact notText _ _ _ (by decide) (by intro i; unfold pausedPath symbolPath; simp)
  · have hq : capPath ∈ erc20Cells name symbol := by unfold erc20Cells; simp
    have := C99_reads K hn' ht h2 cells (q := capPath) (m := ⟨none, 5, 0, u256⟩) rfl ⟨_, rfl, trivial, within _ (by simp)⟩ (clear _ hq)
    unfold Constructors.get
    show some (Storage.read K st ⟨none, 5, 0, u256⟩) = _
    rw [this]
    show some (_ &&& mask 32) = _
    rw [mask32, ← hW]
    unfold left
    rw [List.foldl_append]
    rfl
  · have hq : pausedPath ∈ erc20Cells name symbol := by unfold erc20Cells; simp
    have := C99_reads K hn' ht h2 cells (q := pausedPath) (m := ⟨none, 6, 0, Storage.bool⟩) rfl ⟨_, rfl, trivial, within _ (by simp)⟩ (clear _ hq)
    unfold Constructors.get
    show some (Storage.read K st ⟨none, 6, 0, Storage.bool⟩) = _
    rw [this, ← hW]
    unfold left
    rw [List.foldl_append]
    show some (0#256 &&& _) = _
    simp
  · intro q m hm hqc hq hco
    rw [C99_reads K hn' ht h2 cells hm hqc
      (fun w hw _ => hco _ (hcells ▸ List.mem_map_of_mem hw))]
    have : left q W 0#256 = 0#256 := by
      have := left_final q W none
      rw [final_none] at this
      · exact this
      · intro w hw e
        exact hq (e ▸ hcells ▸ List.mem_map_of_mem hw)
    rw [this]
    simp

/-- Strings of up to 31 bytes are kept without hashing, so nothing can coincide: the hypothesis above holds for every hash
function. -/
theorem C99_erc20_short (K : Hash) {n : Nat} {name symbol : Bytes} (h1 : name.length < 32) (h2 : symbol.length < 32) :
    Clear K n erc20Example (erc20Cells name symbol) := by
  intro p hp q hq _
  have e : erc20Cells name symbol = [namePath, symbolPath, capPath, pausedPath] := by
    unfold erc20Cells textCells text
    rw [if_pos h1, if_pos h2]
    rfl
  rw [e] at hp hq
  have none : ∀ p ∈ [namePath, symbolPath, capPath, pausedPath], hashed K erc20Example p = [] := by
    intro p hp
    simp only [List.mem_cons, List.not_mem_nil, or_false] at hp
    rcases hp with rfl | rfl | rfl | rfl <;> rfl
  unfold Coincidence
  rw [none p hp, none q hq]
  simp

/-- A deployment. -/
example (K : Hash) : ∃ ws st, erc20Init (ascii "Token") (ascii "TKN") 1000#256 = some ws ∧
    assign K erc20Sol ws fresh = some st ∧ getText K erc20Example st namePath = some (ascii "Token") ∧
    Constructors.get K erc20Example st capPath = some 1000#256 := by
  obtain ⟨ws, hws⟩ : ∃ ws, erc20Init (ascii "Token") (ascii "TKN") 1000#256 = some ws := ⟨_, rfl⟩
  obtain ⟨st, hst⟩ : ∃ st, assign K erc20Sol ws fresh = some st := by
    cases hws
    exact ⟨_, rfl⟩
  have := C99_erc20_deployed K (n := 10) (by decide) (by decide) hws hst (by decide) (by decide)
    (C99_erc20_short K (by decide) (by decide))
  exact ⟨ws, st, hws, hst, this.2.1, this.2.2.2.1⟩

set_option maxRecDepth 100000 in
/-- A long name, with Keccak: the cells do not coincide either. -/
example : Clear Spec.Keccak.keccak256 10 erc20Example
    (erc20Cells (ascii "A name that does not fit into one word") (ascii "TKN")) := by
  have e : erc20Cells (ascii "A name that does not fit into one word") (ascii "TKN") =
      [namePath, namePath ++ [.index 0], namePath ++ [.index 1], symbolPath, capPath, pausedPath] := by decide
  rw [e]
  intro p hp q hq _
  have hashes : ∀ p ∈ [namePath, namePath ++ [.index 0], namePath ++ [.index 1], symbolPath, capPath, pausedPath],
      hashed Spec.Keccak.keccak256 erc20Example p = [] ∨ hashed Spec.Keccak.keccak256 erc20Example p = [be32 3#256] := by
    intro p hp
    simp only [List.mem_cons, List.not_mem_nil, or_false] at hp
    rcases hp with rfl | rfl | rfl | rfl | rfl | rfl
    · exact Or.inl rfl
    · exact Or.inr rfl
    · exact Or.inr rfl
    · exact Or.inl rfl
    · exact Or.inl rfl
    · exact Or.inl rfl
  have far : ¬ Near 10 (Spec.Keccak.keccak256 (be32 3#256)) 0#256 := by
    rw [near_iff, Proofs.KeccakFast.keccak256_eq]
    decide +kernel
  unfold Coincidence
  rcases hashes p hp with h | h <;> rcases hashes q hq with h' | h' <;> rw [h, h'] <;> simp [far]

end Verif.Props.Constructors
