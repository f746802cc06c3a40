import Verif.Proofs.Texts
import Verif.Proofs.MultiWords
import Verif.Proofs.NftDeployed
/-! # Lemmas: the contracts with texts on storage words -/

namespace Verif.Proofs.Erc1155UriDeployed
open Verif Verif.Storage Verif.Metadata1155 Verif.Erc1155UriDeployed Verif.Spec.Erc1155UriDeployed Verif.Spec.StoragePrograms
open Verif.Spec.UriDeployed Verif.Proofs.Texts
open Verif.Spec.MultiDeployed (Names tokensOf Holdings)
open Verif.Proofs.OnWords (lefts rights lefts_append rights_append lefts_inl rights_inl Under used_lift used_mono look_ok)
open Verif.Props.StoragePrograms (onCells_bind)
open Verif.Proofs.Deployed (Table UsedBy used_bind used_of_uses uses_mono uses_lift)
open Verif.Proofs.Erc721Words (Sim unit look)
open Verif.Abi (Val Decoder Outcome)
open Verif.Spec.Deployed (answer)
open Verif.Spec.OnWords (Apart)
open Verif.Spec.Contracts (Raw after)
open Verif.Contracts (Env)
open Verif.Deployed (Utf8)

/-- The cells stand for the state. -/
structure Rel (L : Nat) (c : Table) (log : List Ev) (s : State) : Prop where
  tokens : s.erc1155 = Erc1155Words.view tokens c (lefts log)
  default : Has L c defaultCell s.metadataUri.uri
  base : Has L c baseCell s.uriStorage.baseUri
  uris : ∀ id, Has L c (uriCell id) (s.uriStorage.tokenUris id)
  events : s.uriStorage.events = rights log

/-- The sizes of the cells. -/
structure Sizes (w : List Step → Nat) : Prop where
  tokens : Erc1155Words.Sizes w tokens
  default : w defaultCell = 32 ∧ ∀ i, w (defaultCell ++ [.index i]) = 32
  base : w baseCell = 32 ∧ ∀ i, w (baseCell ++ [.index i]) = 32
  uris : ∀ id, w (uriCell id) = 32 ∧ ∀ i, w (uriCell id ++ [.index i]) = 32

theorem sizes (K : Hash) : Sizes (widthAt K erc1155MetadataUriExample) :=
  ⟨⟨fun _ _ => rfl, fun _ _ => rfl⟩, ⟨rfl, fun _ => rfl⟩, ⟨rfl, fun _ => rfl⟩, fun _ => ⟨rfl, fun _ => rfl⟩⟩

theorem view_frame {r : List Step} (hd : ∀ q, ¬ r <+: tokens ++ q) {c c' : Table} (h : ∀ p, ¬ Under r p → c' p = c p)
    (log : List Erc1155.Event) : Erc1155Words.view tokens c' log = Erc1155Words.view tokens c log :=
  Erc1155Words.view_frame hd h log

section
variable {w : List Step → Nat} {S : List Address} {N : List U256} {L : Nat} {c : Table} {log : List Ev} {s : State} {U : Utf8}

theorem default_cells {q : List Step} (h : Text defaultCell L q) : Cells S N L q := .inr (.inl h)
theorem base_cells {q : List Step} (h : Text baseCell L q) : Cells S N L q := .inr (.inr (.inl h))
theorem uri_cells {id : U256} (hi : id ∈ N) {q : List Step} (h : Text (uriCell id) L q) : Cells S N L q := .inr (.inr (.inr ⟨id, hi, h⟩))

/-- The answer to a question about a URI. -/
theorem uri_run {E : Type} (hL : 32 * L < 2 ^ 255) {c : Table} {def_ base u : List Char} {id : U256} (hi : id ∈ N) (h1 : Has L c defaultCell def_)
    (h2 : Has L c baseCell base) (h3 : Has L c (uriCell id) u) :
    onCells w (Erc1155UriDeployed.uri U id : Prog E Ev (List Char)) c = .ok (if u.isEmpty then def_ else base ++ u, c, []) ∧
    UsedBy w (Cells S N L) (Erc1155UriDeployed.uri U id : Prog E Ev (List Char)) c := by
  obtain ⟨a1, b1⟩ := has_get (E := E) (V := Ev) (w := w) (U := U) h1 hL (fun _ => default_cells (S := S) (N := N))
  obtain ⟨a2, b2⟩ := has_get (E := E) (V := Ev) (w := w) (U := U) h2 hL (fun _ => base_cells (S := S) (N := N))
  obtain ⟨a3, b3⟩ := has_get (E := E) (V := Ev) (w := w) (U := U) h3 hL (fun _ => uri_cells (S := S) hi)
  constructor
  · unfold Erc1155UriDeployed.uri
    rw [onCells_bind, a3]
    dsimp only
    by_cases e : u.isEmpty = true
    · rw [if_pos e, if_pos e, a1]; rfl
    · rw [if_neg e, if_neg e, onCells_bind, a2]; rfl
  · refine used_bind b3 fun r hr => ?_
    rw [a3] at hr
    cases hr
    dsimp only
    by_cases e : u.isEmpty = true
    · rw [if_pos e]; exact b1
    · rw [if_neg e]; exact used_bind b2 fun _ _ => trivial

/-- The accounts, the tokens and the texts of a call. -/
def Named (S : List Address) (N : List U256) (L : Nat) : Call → Prop
  | .user c => Erc1155Words.Named S N (.inl c)
  | .setTokenUri id u => id ∈ N ∧ Short L u
  | .setBaseUri u => Short L u

theorem rel_part (h : Rel L c log s) {c' : Table} {l' : List Erc1155.Event} (hf : ∀ p, ¬ Under tokens p → c' p = c p) :
    Rel L c' (log ++ l'.map .inl) { s with erc1155 := Erc1155Words.view tokens c' (lefts log ++ l') } := by
  refine ⟨?_, has_frame h.default (by simp [tokens, defaultCell]) hf, has_frame h.base (by simp [tokens, baseCell]) hf,
    fun id => has_frame (h.uris id) (by simp [tokens, uriCell]) hf, ?_⟩
  · rw [lefts_append, lefts_inl]
  · rw [rights_append, rights_inl, List.append_nil]; exact h.events

theorem code_run (hw : Sizes w) (hL : 32 * L < 2 ^ 255) (h : Rel L c log s) (R : Erc1155.Receivers) {caller : Address} (hc : caller ∈ S)
    {call : Call} (hn : Named S N L call) :
    UsedBy w (Cells S N L) (code U R caller call) c ∧
    Same (Rel L) log (onCells w (code U R caller call) c) ((exec s ⟨caller, R, call⟩).map fun s' => (s', ())) := by
  cases call with
  | user u =>
    refine ⟨used_lift _ (used_of_uses _ _ (uses_mono (fun _ => .inl) _ (Erc1155Words.uses_code hc hn))), ?_⟩
    have := part_run (w := w) (R := Rel L) (c := c) (log := log) (Erc1155Words.sim_code hw.tokens R caller (.inl u))
      (used_of_uses _ _ (Erc1155Words.under_code R caller (.inl u))) (put := fun a => { s with erc1155 := a })
      (fun c' l' hf _ => rel_part h hf)
    rw [← h.tokens] at this
    revert this
    unfold unit exec
    dsimp only
    show Same _ _ _ (Except.map _ (Except.map _ (Erc1155.execUser R s.erc1155 caller u))) → _
    cases Erc1155.execUser R s.erc1155 caller u <;> exact id
  | setTokenUri id u =>
    obtain ⟨c', h1, h2, h3, h4⟩ := has_set (E := Erc1155.Err) (V := Ev) (C := Cells S N L) (h.uris id) hL (hw.uris id).1 (hw.uris id).2
      (fun _ => uri_cells hn.1) hn.2
    have hd := has_frame h.default (by simp [uriCell, defaultCell]) h4
    have hb := has_frame h.base (by simp [uriCell, baseCell]) h4
    obtain ⟨a1, a2⟩ := uri_run (E := Erc1155.Err) (w := w) (S := S) (U := U) hL hn.1 hd hb h3
    constructor
    · refine used_bind h2 fun r hr => ?_
      rw [h1] at hr
      cases hr
      exact used_bind a2 fun _ _ => trivial
    · unfold code
      rw [onCells_bind, h1]
      dsimp only
      rw [onCells_bind, a1]
      refine ⟨rfl, ?_, hd, hb, fun i => ?_, ?_⟩
      · show s.erc1155 = _
        rw [h.tokens]
        show _ = Erc1155Words.view tokens c' (lefts (log ++ [Sum.inr _]))
        rw [lefts_append]
        show _ = Erc1155Words.view tokens c' (lefts log ++ [])
        rw [List.append_nil, view_frame (by simp [uriCell, tokens]) h4]
      · show Has L c' (uriCell i) (upd s.uriStorage.tokenUris id u i)
        by_cases e : i = id
        · subst e; rw [upd_same]; exact h3
        · rw [upd_ne _ _ e]
          exact has_frame (h.uris i) (by simp [uriCell]; exact fun e' => e e'.symm) h4
      · show (s.uriStorage.setTokenUri id u s.metadataUri).events = rights (log ++ [Sum.inr _])
        rw [rights_append, ← h.events]
        show s.uriStorage.events ++ [_] = s.uriStorage.events ++ [_]
        unfold UriStorage.uri
        dsimp only
        rw [upd_same]
        rfl
  | setBaseUri u =>
    obtain ⟨c', h1, h2, h3, h4⟩ := has_set (E := Erc1155.Err) (V := Ev) (C := Cells S N L) h.base hL hw.base.1 hw.base.2
      (fun _ => base_cells) hn
    refine ⟨h2, ?_⟩
    unfold code
    rw [h1]
    refine ⟨rfl, ?_, has_frame h.default (by simp [baseCell, defaultCell]) h4, h3, fun i =>
      has_frame (h.uris i) (by simp [uriCell, baseCell]) h4, ?_⟩
    · show s.erc1155 = Erc1155Words.view tokens c' (lefts (log ++ []))
      rw [h.tokens, List.append_nil, view_frame (by simp [baseCell, tokens]) h4]
    · show s.uriStorage.events = rights (log ++ [])
      rw [List.append_nil]
      exact h.events

theorem fits (hw : Sizes w) (hL : 32 * L < 2 ^ 255) (h : Rel L c log s) (K : Hash) (D : Decoder) {env : Env} (hc : env.caller ∈ S) (t f : String)
    {args : List Val} (ha : ∀ a, Names args a → a ∈ S) (hn : ∀ id ∈ tokensOf args, id ∈ N) (hs : ∀ u, Val.string u ∈ args → Short L u) :
    Fits w (Cells S N L) (Rel L) c log (program K D U env t f args) (Contracts.erc1155Metadata K D env t f args s) := by
  have r : ∀ {call : Call} (_ : Named S N L call) (l : List Val), Fits w (Cells S N L) (Rel L) c log
      (OnWords.finish K Revert.erc1155 (fun _ => l) (code U (Calls.receivers1155 K D env.world) env.caller call))
      (Entry.finish K Revert.erc1155 l (exec s ⟨env.caller, Calls.receivers1155 K D env.world, call⟩)) := fun hn l =>
    fits_call K _ l (code_run hw hL h _ hc hn).1 (code_run hw hL h _ hc hn).2
  have a1 : ∀ {a : Address}, Val.address a ∈ args → a ∈ S := fun h => ha _ (.inl h)
  have batch : ∀ (as : List Address) (ids : List U256) (_ : ∀ a ∈ as, a ∈ S) (_ : ∀ id ∈ ids, id ∈ N),
      Fits w (Cells S N L) (Rel L) c log
        (OnWords.finish K Revert.erc1155 (fun l => [.uints l]) ((Erc1155Words.balanceOfBatch tokens as ids).lift id .inl))
        (Contracts.view K Revert.erc1155 s (Contracts.one .uints (Erc1155.balanceOfBatch s.erc1155 as ids))) := by
    intro as ids h1 h2
    have hu : UsedBy w (Holdings tokens S N) (Erc1155Words.balanceOfBatch tokens as ids) c :=
      used_of_uses _ _ (Erc1155Words.uses_batch fun id hi a hx => .inl ⟨id, h2 _ hi, a, h1 _ hx, rfl⟩)
    have := part_run (w := w) (R := Rel L) (c := c) (log := log) (Erc1155Words.sim_batch as ids)
      (used_of_uses _ _ (Erc1155Words.uses_batch fun _ _ _ _ => ⟨_, rfl⟩)) (put := fun a => { s with erc1155 := a })
      (fun c' l' hf _ => rel_part h hf)
    have := fits_finish K Revert.erc1155 (fun l => [.uints l]) (used_lift _ (used_mono (C' := Cells S N L) (fun _ => .inl) _ hu)) this
    rw [← h.tokens] at this
    revert this
    unfold look
    dsimp only
    cases Erc1155.balanceOfBatch s.erc1155 as ids <;> exact id
  have hb : ∀ id a, s.erc1155.balances id a = c (Erc1155Words.balance tokens id a) := fun id a => by rw [h.tokens]; rfl
  have ho : ∀ a b, s.erc1155.operatorApprovals a b = decide (c (Erc1155Words.operator tokens a b) ≠ 0#256) := fun a b => by
    rw [h.tokens]; rfl
  unfold program Contracts.erc1155Metadata
  refine fits_table (.cons ⟨rfl, rfl, ?_⟩ (.cons ⟨rfl, rfl, ?_⟩ (.cons ⟨rfl, rfl, ?_⟩ (.cons ⟨rfl, rfl, ?_⟩ (.cons ⟨rfl, rfl, ?_⟩
    (.cons ⟨rfl, rfl, ?_⟩ (.cons ⟨rfl, rfl, ?_⟩ (.cons ⟨rfl, rfl, ?_⟩ (.cons ⟨rfl, rfl, ?_⟩ (.cons ⟨rfl, rfl, ?_⟩ .nil))))))))))
  · accepts fits_read h (uri_run hL (hn _ (by simp [tokensOf])) h.default h.base (h.uris _)) (fun u => [.string u])
  · accepts r (call := .setTokenUri _ _) ⟨hn _ (by simp [tokensOf]), hs _ (by simp)⟩ _
  · accepts r (call := .setBaseUri _) (hs _ (by simp)) _
  · accepts fits_ret h _
  · accepts r (call := .user (.setApprovalForAll _ _)) (a1 (by simp)) _
  · accepts r (call := .user (.safeTransferFrom _ _ _ _ _)) ⟨a1 (by simp), a1 (by simp), hn _ (by simp [tokensOf])⟩ _
  · accepts r (call := .user (.safeBatchTransferFrom _ _ _ _ _)) ⟨a1 (by simp), a1 (by simp), fun i hi => hn i (by simpa [tokensOf] using hi)⟩ _
  · dsimp only
    split
    · next a id =>
      dsimp only
      rw [show Erc1155.balanceOf s.erc1155 a id = _ from hb id a]
      exact fits_get h (.inl (.inl ⟨_, hn _ (by simp [tokensOf]), _, ha _ (.inl (by simp)), rfl⟩)) (fun v => [.uint256 v])
    · next h =>
      split
      · exact absurd rfl (h _ _)
      · exact fits_fail
  · accepts batch _ _ (fun a hx => ha a (.inr ⟨_, by simp, hx⟩)) (fun id hi => hn id (by simpa [tokensOf] using hi))
  · dsimp only
    split
    · next a b =>
      dsimp only
      rw [show Erc1155.isApprovedForAll s.erc1155 a b = _ from ho a b]
      exact fits_get h (.inl (.inr ⟨_, ha _ (.inl (by simp)), _, ha _ (.inl (by simp)), rfl⟩)) (fun v => [.bool (decide (v ≠ 0#256))])
    · next h =>
      split
      · exact absurd rfl (h _ _)
      · exact fits_fail

end

/-- The contract with independent mappings. -/
def model (K : Hash) (D : Decoder) (env : Env) (s : State) (value : U256) (input : Bytes) : Outcome State :=
  Abi.entry K D Router.erc1155MetadataUriExample (Contracts.erc1155Metadata K D env) s value input

section
variable {K : Hash} {n : Nat} {S : List Address} {N : List U256} {L : Nat}

/-- The words and the state agree. -/
abbrev Agrees (K : Hash) (S : List Address) (N : List U256) (L : Nat) := Inv K erc1155MetadataUriExample (Cells S N L) (Rel L)

theorem inv_step (h : Apart K n erc1155MetadataUriExample (Cells S N L)) (hL : 32 * L < 2 ^ 255) (D : Decoder) (U : Utf8)
    {w : OnWords.State Ev} {s : State} (hi : Agrees K S N L w s)
    {tx : Raw Env} (hx : Within K D Router.erc1155MetadataUriExample S N L tx) :
    answer (entry K D U tx.env w tx.value tx.input) = answer (model K D tx.env s tx.value tx.input) ∧
    Agrees K S N L ((entry K D U tx.env w tx.value tx.input).after w) ((model K D tx.env s tx.value tx.input).after s) :=
  step (by decide) h D Router.erc1155MetadataUriExample hi tx.value tx.input fun u f args hr hd _ _ hrel =>
    fits (sizes K) hL hrel K D hx.names.sender u f.rustName (hx.names.accounts args ⟨u, f, hr, hd⟩) (hx.names.tokens args ⟨u, f, hr, hd⟩)
      (hx.texts args ⟨u, f, hr, hd⟩)

theorem inv_run (h : Apart K n erc1155MetadataUriExample (Cells S N L)) (hL : 32 * L < 2 ^ 255) (D : Decoder) (U : Utf8) (txs : List (Raw Env))
    {w : OnWords.State Ev} {s : State} (hi : Agrees K S N L w s) (hx : ∀ tx ∈ txs, Within K D Router.erc1155MetadataUriExample S N L tx) :
    Agrees K S N L (after (entry K D U) w txs) (after (model K D) s txs) :=
  Proofs.OnWords.steps (run := entry K D U) (run' := model K D) (I := Agrees K S N L)
    (ok := Within K D Router.erc1155MetadataUriExample S N L) (fun _ _ _ hi hx => (inv_step h hL D U hi hx).2) txs hi hx

theorem text_ok (hw : Sizes (widthAt K erc1155MetadataUriExample)) {u : List Char} (hs : Short L u) :
    ∀ e ∈ Constructors.text defaultCell (Logs.utf8 u), Cells S N L e.1 ∧ widthAt K erc1155MetadataUriExample e.1 = 32 := by
  intro e he
  unfold Short at hs
  rcases Proofs.Constructors.text_mem he with e1 | ⟨i, hi, e1⟩
  · rw [e1]; exact ⟨default_cells (.inl rfl), hw.default.1⟩
  · rw [e1]; exact ⟨default_cells (.inr ⟨i, by omega, rfl⟩), hw.default.2 i⟩

theorem inv_deploy (h : Apart K n erc1155MetadataUriExample (Cells S N L)) {u : List Char} (hs : Short L u) :
    ∃ w, deploy K u = some w ∧ Agrees K S N L w (init u) := by
  obtain ⟨st, c, h1, h2, h3⟩ := assigned (by decide) h (Constructors.text defaultCell (Logs.utf8 u))
    (Proofs.OnWords.fresh_agree K erc1155MetadataUriExample (Cells S N L)) (text_ok (sizes K) hs)
  have hz := (Props.Constructors.C99_erc1155_metadata_uri K (Logs.utf8 u)).trans h1
  have e : deploy K u = some ⟨st, []⟩ := by
    unfold Constructors.erc1155MetadataUriInit at hz
    rw [Option.bind_some] at hz
    unfold deploy Constructors.erc1155MetadataUriInit
    rw [Option.bind_some, hz]
    rfl
  have hf : ∀ q, ¬ Under defaultCell q → c q = (fun _ => 0#256) q := fun q hq =>
    Option.some.inj ((h3 q).trans (Proofs.Constructors.final_none (text_under hq)))
  refine ⟨_, e, c, h2, ?_, ?_, ?_, fun id => ?_, rfl⟩
  · show Erc1155.init = Erc1155Words.view tokens c []
    rw [view_frame (by simp [defaultCell, tokens]) hf]
    rfl
  · exact ⟨holds_final (a := []) (b := []) (c := fun _ => 0#256)
      (fun q => by rw [List.append_nil, List.nil_append]; exact h3 q) (by simp), hs,
      fun i => clean_final (a := []) (b := []) (c := fun _ => 0#256) (fun q => by rw [List.append_nil, List.nil_append]; exact h3 q)
        (by simp) (by simp) fun _ => rfl⟩
  · exact has_nil fun q => hf _ (by simp [Under, defaultCell, baseCell])
  · exact has_nil fun q => hf _ (by simp [Under, defaultCell, uriCell])

end
end Verif.Proofs.Erc1155UriDeployed

namespace Verif.Proofs.Erc721UriDeployed
open Verif Verif.Storage Verif.Metadata Verif.Erc721UriDeployed Verif.Spec.Erc721UriDeployed Verif.Spec.StoragePrograms
open Verif.Spec.UriDeployed Verif.Proofs.Texts
open Verif.Spec.MultiDeployed (tokensOf)
open Verif.Proofs.OnWords (lefts rights lefts_append rights_append lefts_inl rights_inl Under used_lift used_mono look_ok)
open Verif.Props.StoragePrograms (onCells_bind)
open Verif.Proofs.Deployed (Table UsedBy used_bind used_of_uses uses_mono uses_lift)
open Verif.Proofs.Erc721Words (Sim unit look)
open Verif.Abi (Val Decoder Outcome)
open Verif.Spec.Deployed (answer)
open Verif.Spec.OnWords (Apart)
open Verif.Spec.Contracts (Raw after)
open Verif.Contracts (Env)
open Verif.Deployed (Utf8)

/-- The cells stand for the state. -/
structure Rel (S : List Address) (L : Nat) (c : Table) (log : List Ev) (s : State) : Prop where
  token : s.erc721 = Erc721Words.view token c (lefts log)
  owners : ∀ id, s.erc721.owners id ∈ S
  name : Has L c nameCell s.metadata.name
  symbol : Has L c symbolCell s.metadata.symbol
  base : Has L c baseCell s.metadata.baseUri
  uris : ∀ id, Has L c (uriCell id) (s.uriStorage.tokenUris id)
  updates : s.uriStorage.updates = rights log

/-- The sizes of the cells. -/
structure Sizes (w : List Step → Nat) : Prop where
  token : Erc721Words.Sizes w token
  name : w nameCell = 32 ∧ ∀ i, w (nameCell ++ [.index i]) = 32
  symbol : w symbolCell = 32 ∧ ∀ i, w (symbolCell ++ [.index i]) = 32
  base : w baseCell = 32 ∧ ∀ i, w (baseCell ++ [.index i]) = 32
  uris : ∀ id, w (uriCell id) = 32 ∧ ∀ i, w (uriCell id ++ [.index i]) = 32

theorem sizes (K : Hash) : Sizes (widthAt K erc721MetadataExample) :=
  ⟨⟨fun _ => rfl, fun _ => rfl, fun _ => rfl, fun _ _ => rfl⟩, ⟨rfl, fun _ => rfl⟩, ⟨rfl, fun _ => rfl⟩, ⟨rfl, fun _ => rfl⟩,
    fun _ => ⟨rfl, fun _ => rfl⟩⟩

theorem view_frame {r : List Step} (hd : ∀ q, ¬ r <+: token ++ q) {c c' : Table} (h : ∀ p, ¬ Under r p → c' p = c p)
    (log : List Erc721.Event) : Erc721Words.view token c' log = Erc721Words.view token c log :=
  NftDeployed.view_under (fun p ⟨q, hq⟩ => h p (by rw [hq]; exact hd q)) log

section
variable {w : List Step → Nat} {S : List Address} {N : List U256} {L : Nat} {c : Table} {log : List Ev} {s : State} {U : Utf8}

theorem name_cells {q : List Step} (h : Text nameCell L q) : Cells S N L q := .inr (.inl h)
theorem symbol_cells {q : List Step} (h : Text symbolCell L q) : Cells S N L q := .inr (.inr (.inl h))
theorem base_cells {q : List Step} (h : Text baseCell L q) : Cells S N L q := .inr (.inr (.inr (.inl h)))
theorem uri_cells {id : U256} (hi : id ∈ N) {q : List Step} (h : Text (uriCell id) L q) : Cells S N L q :=
  .inr (.inr (.inr (.inr ⟨id, hi, h⟩)))

theorem cells_under {p : List Step} (h : Spec.Erc721Words.Cells token S N p) : Under token p := by
  rcases h with ⟨_, _, rfl⟩ | ⟨_, _, rfl⟩ | ⟨_, _, rfl⟩ | ⟨_, _, _, _, rfl⟩ <;> exact ⟨_, rfl⟩

theorem rel_part (h : Rel S L c log s) {c' : Table} {l' : List Erc721.Event} (hf : ∀ p, ¬ Under token p → c' p = c p)
    (ho : ∀ id, (Erc721Words.view token c' (lefts log ++ l')).owners id ∈ S) :
    Rel S L c' (log ++ l'.map .inl) { s with erc721 := Erc721Words.view token c' (lefts log ++ l') } := by
  refine ⟨?_, ho, has_frame h.name (by simp [token, nameCell]) hf, has_frame h.symbol (by simp [token, symbolCell]) hf,
    has_frame h.base (by simp [token, baseCell]) hf, fun id => has_frame (h.uris id) (by simp [token, uriCell]) hf, ?_⟩
  · rw [lefts_append, lefts_inl]
  · rw [rights_append, rights_inl, List.append_nil]; exact h.updates

/-- A function of the token that only looks. -/
theorem look_run {α : Type} (h : Rel S L c log s) {m : Erc721Words.Code α} {f : Erc721.State → Except Erc721.Err α}
    (hs : Sim w (Erc721Words.view token) m (look f)) (hu : UsedBy w (Spec.Erc721Words.Cells token S N) m c) :
    UsedBy w (Cells S N L) (inner m) c ∧ Same (Rel S L) log (onCells w (inner m) c) ((f s.erc721).map fun a => (s, a)) := by
  refine ⟨used_lift _ (used_mono (C' := Cells S N L) (fun _ => .inl) _ hu), ?_⟩
  have := part_run (R := Rel S L) (log := log) hs (used_mono (fun _ => cells_under) _ hu) (put := fun a => { s with erc721 := a })
    (fun c' l' hf he => rel_part h hf fun id => by
      obtain ⟨a, he⟩ := he
      rw [(look_ok he).2, ← h.token]
      exact h.owners id)
  rw [← h.token] at this
  revert this
  unfold look
  cases f s.erc721 <;> exact id

theorem fits_look {α : Type} (K : Hash) (h : Rel S L c log s) {m : Erc721Words.Code α} {f : Erc721.State → Except Erc721.Err α}
    (hs : Sim w (Erc721Words.view token) m (look f)) (hu : UsedBy w (Spec.Erc721Words.Cells token S N) m c) (g : α → Val) :
    Fits w (Cells S N L) (Rel S L) c log (OnWords.finish K Revert.erc721 (fun a => [g a]) (inner m))
      (Contracts.view K Revert.erc721 s (Contracts.one g (f s.erc721))) := by
  have := fits_finish K Revert.erc721 (fun a => [g a]) (look_run h hs hu).1 (look_run h hs hu).2
  revert this
  cases f s.erc721 <;> exact id

/-- A token's URI. -/
theorem uri_run (hL : 32 * L < 2 ^ 255) (h : Rel S L c log s) {id : U256} (hi : id ∈ N) :
    UsedBy w (Cells S N L) (Erc721UriDeployed.tokenUri U id) c ∧
    Same (Rel S L) log (onCells w (Erc721UriDeployed.tokenUri U id) c) ((tokenURI s id).map fun a => (s, a)) := by
  obtain ⟨a1, b1⟩ := has_get (E := Erc721.Err) (V := Ev) (w := w) (U := U) h.base hL (fun _ => base_cells (S := S) (N := N))
  obtain ⟨a2, b2⟩ := has_get (E := Erc721.Err) (V := Ev) (w := w) (U := U) (h.uris id) hL (fun _ => uri_cells (S := S) hi)
  have u0 : UsedBy w (Cells S N L) (inner (Erc721Words.requireOwned token id)) c :=
    used_lift _ (used_mono (C' := Cells S N L) (fun _ => .inl) _ (Erc721Words.used_owned hi))
  have e0 : onCells w (inner (Erc721Words.requireOwned token id)) c = match Erc721.requireOwned s.erc721 id with
      | .error e => .error e
      | .ok a => .ok (a, c, []) := by
    rw [h.token]
    unfold inner
    rw [Proofs.Deployed.onCells_lift]
    have e1 : onCells w (Erc721Words.requireOwned token id) c = if (c (Erc721Words.owner token id)).setWidth 160 = ZERO
        then .error (Erc721.Err.nonexistentToken id) else .ok ((c (Erc721Words.owner token id)).setWidth 160, c, []) := by
      show onCells w (if (c (Erc721Words.owner token id)).setWidth 160 = ZERO then .fail (Erc721.Err.nonexistentToken id) else .ret _) c = _
      split <;> rfl
    have e2 : Erc721.requireOwned (Erc721Words.view token c (lefts log)) id = if (c (Erc721Words.owner token id)).setWidth 160 = ZERO
        then .error (Erc721.Err.nonexistentToken id) else .ok ((c (Erc721Words.owner token id)).setWidth 160) := rfl
    rw [e1, e2]
    by_cases hz : (c (Erc721Words.owner token id)).setWidth 160 = ZERO
    · rw [if_pos hz, if_pos hz]; rfl
    · rw [if_neg hz, if_neg hz]; rfl
  have rel : Rel S L c (log ++ []) s := by rw [List.append_nil]; exact h
  unfold Erc721UriDeployed.tokenUri tokenURI UriStorage.tokenUri
  rw [onCells_bind, e0]
  cases ho : Erc721.requireOwned s.erc721 id with
  | error e =>
    rw [show Erc721.ownerOf s.erc721 id = .error e from ho]
    refine ⟨used_bind u0 fun r hr => ?_, rfl⟩
    rw [e0, ho] at hr
    cases hr
  | ok o =>
    rw [show Erc721.ownerOf s.erc721 id = .ok o from ho]
    have d : UsedBy w (Cells S N L) (defaultUri U id) c ∧ onCells w (defaultUri U id) c =
        .ok (if s.metadata.baseUri.isEmpty then [] else s.metadata.baseUri ++ decimal id.toNat, c, []) := by
      constructor
      · refine used_bind u0 fun r hr => ?_
        rw [e0, ho] at hr
        cases hr
        exact used_bind b1 fun _ _ => trivial
      · unfold defaultUri
        rw [onCells_bind, e0, ho]
        dsimp only
        rw [onCells_bind, a1]
        rfl
    dsimp only
    rw [onCells_bind, a2]
    dsimp only
    rw [onCells_bind, a1]
    dsimp only
    constructor
    · refine used_bind u0 fun r hr => ?_
      rw [e0, ho] at hr
      cases hr
      refine used_bind b2 fun r hr => ?_
      rw [a2] at hr
      cases hr
      refine used_bind b1 fun r hr => ?_
      rw [a1] at hr
      cases hr
      dsimp only
      split
      · trivial
      split
      · exact d.1
      · trivial
    · by_cases e1 : s.metadata.baseUri.isEmpty = true
      · simp only [if_pos e1]
        exact ⟨rfl, rel⟩
      by_cases e2 : (s.uriStorage.tokenUris id).isEmpty = true
      · simp only [if_neg e1, if_pos e2]
        rw [d.2, if_neg e1]
        unfold Erc721Metadata.tokenUri
        rw [show Erc721.ownerOf s.erc721 id = .ok o from ho]
        show Same (Rel S L) log _ (Except.ok (s, if s.metadata.baseUri.isEmpty then [] else _))
        rw [if_neg e1]
        exact ⟨rfl, rel⟩
      · simp only [if_neg e1, if_neg e2]
        exact ⟨rfl, rel⟩

/-- The accounts, the tokens and the texts of a call. -/
def Named (S : List Address) (N : List U256) (L : Nat) (caller : Address) (R : Erc721.Receivers) : Call → Prop
  | .mint dst id => Spec.Erc721Words.Names S N ⟨caller, R, .inr (.mint dst id)⟩
  | .user c => Spec.Erc721Words.Names S N ⟨caller, R, .inl c⟩
  | .setTokenUri id u => id ∈ N ∧ Short L u

theorem token_run (hw : Sizes w) (h0 : ZERO ∈ S) (h : Rel S L c log s) {R : Erc721.Receivers} {caller : Address}
    {call : Erc721.UserCall ⊕ Erc721.AdminCall} (hn : Spec.Erc721Words.Names S N ⟨caller, R, call⟩) :
    UsedBy w (Cells S N L) (tokenCode R caller call) c ∧ Same (Rel S L) log (onCells w (tokenCode R caller call) c)
      ((Erc721.exec s.erc721 ⟨caller, R, call⟩).map fun t => ({ s with erc721 := t }, ())) := by
  unfold tokenCode
  by_cases hz : caller = ZERO
  · rw [if_pos hz]
    unfold Erc721.exec
    rw [if_pos hz]
    exact ⟨trivial, rfl⟩
  rw [if_neg hz]
  have hu : UsedBy w (Spec.Erc721Words.Cells token S N) (Erc721Words.code token R caller call) c :=
    Proofs.Erc721Words.used_code (tx := ⟨caller, R, call⟩) h0 hn fun id _ => by
      have := h.owners id
      rw [h.token] at this
      exact this
  refine ⟨used_lift _ (used_mono (C' := Cells S N L) (fun _ => .inl) _ hu), ?_⟩
  have := part_run (R := Rel S L) (log := log) (Proofs.Erc721Words.sim_code hw.token ⟨caller, R, call⟩ hz)
    (used_mono (fun _ => cells_under) _ hu) (put := fun a => { s with erc721 := a }) (fun c' l' hf he => rel_part h hf fun id => by
      obtain ⟨a, he⟩ := he
      have he := Proofs.OnWords.unit_ok he
      rcases Proofs.Erc721Words.exec_owners he id with e | ⟨e, _⟩
      · rw [e, ← h.token]; exact h.owners id
      · rcases List.mem_cons.mp e with e | e
        · rw [e]; exact h0
        · exact hn.1 _ e)
  rw [← h.token] at this
  revert this
  unfold unit
  dsimp only
  cases Erc721.exec s.erc721 ⟨caller, R, call⟩ <;> exact id

theorem code_run (hw : Sizes w) (hL : 32 * L < 2 ^ 255) (h0 : ZERO ∈ S) (h : Rel S L c log s) {R : Erc721.Receivers} {caller : Address}
    {call : Call} (hn : Named S N L caller R call) :
    UsedBy w (Cells S N L) (code R caller call) c ∧
    Same (Rel S L) log (onCells w (code R caller call) c) ((exec s ⟨caller, R, call⟩).map fun s' => (s', ())) := by
  cases call with
  | mint dst id =>
    have := token_run (N := N) hw h0 h hn
    refine ⟨this.1, ?_⟩
    have := this.2
    revert this
    unfold exec
    dsimp only
    cases Erc721.exec s.erc721 ⟨caller, R, .inr (.mint dst id)⟩ <;> exact fun h => h
  | user u =>
    have := token_run (N := N) hw h0 h hn
    refine ⟨this.1, ?_⟩
    have := this.2
    revert this
    unfold exec
    dsimp only
    cases Erc721.exec s.erc721 ⟨caller, R, .inl u⟩ <;> exact id
  | setTokenUri id u =>
    obtain ⟨c', h1, h2, h3, h4⟩ := has_set (E := Erc721.Err) (V := Ev) (C := Cells S N L) (h.uris id) hL (hw.uris id).1 (hw.uris id).2
      (fun _ => uri_cells hn.1) hn.2
    constructor
    · exact used_bind h2 fun _ _ => trivial
    · unfold code
      rw [onCells_bind, h1]
      have ht : s.erc721 = Erc721Words.view token c' (lefts (log ++ [Sum.inr id])) := by
        rw [h.token, lefts_append]
        show _ = Erc721Words.view token c' (lefts log ++ [])
        rw [List.append_nil, view_frame (by simp [uriCell, token]) h4]
      refine ⟨rfl, ht, h.owners, has_frame h.name (by simp [uriCell, nameCell]) h4, has_frame h.symbol (by simp [uriCell, symbolCell]) h4,
        has_frame h.base (by simp [uriCell, baseCell]) h4, fun i => ?_, ?_⟩
      · show Has L c' (uriCell i) (upd s.uriStorage.tokenUris id u i)
        by_cases e : i = id
        · subst e; rw [upd_same]; exact h3
        · rw [upd_ne _ _ e]
          exact has_frame (h.uris i) (by simp [uriCell]; exact fun e' => e e'.symm) h4
      · show s.uriStorage.updates ++ [id] = rights (log ++ [Sum.inr id])
        rw [rights_append, ← h.updates]
        rfl

open Verif.Spec.MultiDeployed (Names) in
theorem fits (hw : Sizes w) (hL : 32 * L < 2 ^ 255) (h0 : ZERO ∈ S) (h : Rel S L c log s) (K : Hash) (D : Decoder) {env : Env}
    (hc : env.caller ∈ S) (t f : String) {args : List Val} (ha : ∀ a, Names args a → a ∈ S) (hn : ∀ id ∈ tokensOf args, id ∈ N)
    (hs : ∀ u, Val.string u ∈ args → Short L u) :
    Fits w (Cells S N L) (Rel S L) c log (program K D U env t f args) (Contracts.erc721Metadata K D env t f args s) := by
  have r : ∀ {call : Call} (_ : Named S N L env.caller (Calls.receivers721 K D env.world) call) (l : List Val),
      Fits w (Cells S N L) (Rel S L) c log
      (OnWords.finish K Revert.erc721 (fun _ => l) (code (Calls.receivers721 K D env.world) env.caller call))
      (Entry.finish K Revert.erc721 l (exec s ⟨env.caller, Calls.receivers721 K D env.world, call⟩)) := fun hn l =>
    fits_call K _ l (code_run hw hL h0 h hn).1 (code_run hw hL h0 h hn).2
  have a1 : ∀ {a : Address}, Val.address a ∈ args → a ∈ S := fun h => ha _ (.inl h)
  have uri : ∀ {id : U256} (_ : id ∈ N), Fits w (Cells S N L) (Rel S L) c log
      (OnWords.finish K Revert.erc721 (fun u => [.string u]) (Erc721UriDeployed.tokenUri U id))
      (Contracts.view K Revert.erc721 s (Contracts.one .string (tokenURI s id))) := by
    intro id hi
    have := fits_finish (w := w) K Revert.erc721 (fun u => [.string u]) (uri_run (U := U) hL h hi).1 (uri_run hL h hi).2
    revert this
    cases tokenURI s id <;> exact fun h => h
  have oper : ∀ {a b : Address} (_ : a ∈ S) (_ : b ∈ S), Fits w (Cells S N L) (Rel S L) c log
      (OnWords.finish K Revert.erc721 (fun b => [.bool b]) (inner (Erc721Words.isApprovedForAll token a b)))
      (.ok (s, [.bool (Erc721.isApprovedForAll s.erc721 a b)])) := by
    intro a b h1 h2
    exact fits_look (f := fun s => .ok (Erc721.isApprovedForAll s a b)) K h (Proofs.Erc721Words.sim_operator a b)
      ⟨.inr (.inr (.inr ⟨a, h1, b, h2, rfl⟩)), trivial⟩ .bool
  unfold program Contracts.erc721Metadata
  refine fits_table (.cons ⟨rfl, rfl, ?_⟩ (.cons ⟨rfl, rfl, ?_⟩ (.cons ⟨rfl, rfl, ?_⟩ (.cons ⟨rfl, rfl, ?_⟩ (.cons ⟨rfl, rfl, ?_⟩
    (.cons ⟨rfl, rfl, ?_⟩ (.cons ⟨rfl, rfl, ?_⟩ (.cons ⟨rfl, rfl, ?_⟩ (.cons ⟨rfl, rfl, ?_⟩ (.cons ⟨rfl, rfl, ?_⟩ (.cons ⟨rfl, rfl, ?_⟩
    (.cons ⟨rfl, rfl, ?_⟩ (.cons ⟨rfl, rfl, ?_⟩ (.cons ⟨rfl, rfl, ?_⟩ (.cons ⟨rfl, rfl, ?_⟩ (.cons ⟨rfl, rfl, ?_⟩ .nil))))))))))))))))
  · accepts r (call := .mint _ _) ⟨by simp [Spec.Erc721Words.accounts, hc, a1], by simpa [Spec.Erc721Words.tokens, tokensOf] using hn⟩ _
  · accepts r (call := .user (.burn _)) ⟨by simp [Spec.Erc721Words.accounts, hc], by simpa [Spec.Erc721Words.tokens, tokensOf] using hn⟩ _
  · accepts uri (hn _ (by simp [tokensOf]))
  · accepts r (call := .setTokenUri _ _) ⟨hn _ (by simp [tokensOf]), hs _ (by simp)⟩ _
  · accepts fits_ret h _
  · accepts r (call := .user (.transferFrom _ _ _)) ⟨by simp [Spec.Erc721Words.accounts, hc, a1], by simpa [Spec.Erc721Words.tokens, tokensOf] using hn⟩ _
  · accepts r (call := .user (.safeTransferFrom _ _ _)) ⟨by simp [Spec.Erc721Words.accounts, hc, a1], by simpa [Spec.Erc721Words.tokens, tokensOf] using hn⟩ _
  · accepts r (call := .user (.safeTransferFromWithData _ _ _ _)) ⟨by simp [Spec.Erc721Words.accounts, hc, a1], by simpa [Spec.Erc721Words.tokens, tokensOf] using hn⟩ _
  · accepts r (call := .user (.approve _ _)) ⟨by simp [Spec.Erc721Words.accounts, hc, a1], by simpa [Spec.Erc721Words.tokens, tokensOf] using hn⟩ _
  · accepts r (call := .user (.setApprovalForAll _ _)) ⟨by simp [Spec.Erc721Words.accounts, hc, a1], by simp [Spec.Erc721Words.tokens]⟩ _
  · accepts fits_read h (has_get h.name hL (fun _ => name_cells)) (fun u => [.string u])
  · accepts fits_read h (has_get h.symbol hL (fun _ => symbol_cells)) (fun u => [.string u])
  · accepts fits_look K h (Proofs.Erc721Words.sim_balance _) (used_of_uses _ _ (Props.StoragePrograms.uses_ite trivial ⟨.inr (.inl ⟨_, a1 (by simp), rfl⟩), fun _ => trivial⟩)) .uint256
  · accepts fits_look K h (Proofs.Erc721Words.sim_owned _) (Proofs.Erc721Words.used_owned (hn _ (by simp [tokensOf]))) .address
  · accepts fits_look K h (Proofs.Erc721Words.sim_getApproved _) (used_bind (Proofs.Erc721Words.used_owned (hn _ (by simp [tokensOf]))) fun _ _ => ⟨.inr (.inr (.inl ⟨_, hn _ (by simp [tokensOf]), rfl⟩)), trivial⟩) .address
  · accepts oper (a1 (by simp)) (a1 (by simp))

end

/-- The contract with independent mappings. -/
def model (K : Hash) (D : Decoder) (env : Env) (s : State) (value : U256) (input : Bytes) : Outcome State :=
  Abi.entry K D Router.erc721MetadataExample (Contracts.erc721Metadata K D env) s value input

section
variable {K : Hash} {n : Nat} {S : List Address} {N : List U256} {L : Nat}

/-- The words and the state agree. -/
abbrev Agrees (K : Hash) (S : List Address) (N : List U256) (L : Nat) := Inv K erc721MetadataExample (Cells S N L) (Rel S L)

theorem inv_step (h : Apart K n erc721MetadataExample (Cells S N L)) (hL : 32 * L < 2 ^ 255) (h0 : ZERO ∈ S) (D : Decoder) (U : Utf8)
    {w : OnWords.State Ev} {s : State} (hi : Agrees K S N L w s)
    {tx : Raw Env} (hx : Within K D Router.erc721MetadataExample S N L tx) :
    answer (entry K D U tx.env w tx.value tx.input) = answer (model K D tx.env s tx.value tx.input) ∧
    Agrees K S N L ((entry K D U tx.env w tx.value tx.input).after w) ((model K D tx.env s tx.value tx.input).after s) :=
  step (by decide) h D Router.erc721MetadataExample hi tx.value tx.input fun u f args hr hd _ _ hrel =>
    fits (sizes K) hL h0 hrel K D hx.names.sender u f.rustName (hx.names.accounts args ⟨u, f, hr, hd⟩)
      (hx.names.tokens args ⟨u, f, hr, hd⟩) (hx.texts args ⟨u, f, hr, hd⟩)

theorem inv_run (h : Apart K n erc721MetadataExample (Cells S N L)) (hL : 32 * L < 2 ^ 255) (h0 : ZERO ∈ S) (D : Decoder) (U : Utf8)
    (txs : List (Raw Env)) {w : OnWords.State Ev} {s : State} (hi : Agrees K S N L w s)
    (hx : ∀ tx ∈ txs, Within K D Router.erc721MetadataExample S N L tx) :
    Agrees K S N L (after (entry K D U) w txs) (after (model K D) s txs) :=
  Proofs.OnWords.steps (run := entry K D U) (run' := model K D) (I := Agrees K S N L)
    (ok := Within K D Router.erc721MetadataExample S N L) (fun _ _ _ hi hx => (inv_step h hL h0 D U hi hx).2) txs hi hx

theorem text_ok {p : List Step} (hw : widthAt K erc721MetadataExample p = 32 ∧ ∀ i, widthAt K erc721MetadataExample (p ++ [.index i]) = 32)
    (hC : ∀ q, Text p L q → Cells S N L q) {u : List Char} (hs : Short L u) :
    ∀ e ∈ Constructors.text p (Logs.utf8 u), Cells S N L e.1 ∧ widthAt K erc721MetadataExample e.1 = 32 := by
  intro e he
  unfold Short at hs
  rcases Proofs.Constructors.text_mem he with e1 | ⟨i, hi, e1⟩
  · rw [e1]; exact ⟨hC _ (.inl rfl), hw.1⟩
  · rw [e1]; exact ⟨hC _ (.inr ⟨i, by omega, rfl⟩), hw.2 i⟩

theorem inv_deploy (h : Apart K n erc721MetadataExample (Cells S N L)) (h0 : ZERO ∈ S) {m : Erc721Metadata} (hn : Short L m.name)
    (hy : Short L m.symbol) (hb : Short L m.baseUri) : ∃ w, deploy K m = some w ∧ Agrees K S N L w (init m) := by
  obtain ⟨st, c, h1, h2, h3⟩ := assigned (by decide) h (Constructors.text nameCell (Logs.utf8 m.name) ++
      Constructors.text symbolCell (Logs.utf8 m.symbol) ++ Constructors.text baseCell (Logs.utf8 m.baseUri))
    (Proofs.OnWords.fresh_agree K erc721MetadataExample (Cells S N L)) (by
      intro e he
      rcases List.mem_append.mp he with he | he
      · rcases List.mem_append.mp he with he | he
        · exact text_ok (sizes K).name (fun _ => name_cells) hn e he
        · exact text_ok (sizes K).symbol (fun _ => symbol_cells) hy e he
      · exact text_ok (sizes K).base (fun _ => base_cells) hb e he)
  have hz := (Props.Constructors.C99_erc721_metadata K (Logs.utf8 m.name) (Logs.utf8 m.symbol) (Logs.utf8 m.baseUri)).trans h1
  have e : deploy K m = some ⟨st, []⟩ := by
    unfold Constructors.erc721MetadataInit at hz
    rw [Option.bind_some] at hz
    unfold deploy Constructors.erc721MetadataInit
    rw [Option.bind_some, hz]
    rfl
  have away : ∀ {p q : List Step} {bs : Bytes} (_ : ∀ r, ¬ p <+: q ++ r), ∀ e ∈ Constructors.text p bs, e.1 ≠ q ∧ ∀ i, e.1 ≠ q ++ [.index i] :=
    fun hd e he => ⟨text_under (by have := hd []; rwa [List.append_nil] at this) e he, fun i => text_under (hd _) e he⟩
  have hf : ∀ q, ¬ Under [.field "metadata"] q → c q = (fun _ => 0#256) q := by
    intro q hq
    refine Option.some.inj ((h3 q).trans (Proofs.Constructors.final_none fun e he => ?_))
    rcases List.mem_append.mp he with he | he
    · rcases List.mem_append.mp he with he | he
      · exact text_under (p := nameCell) (fun ⟨r, hr⟩ => hq ⟨[.field "metadata", .field "name"] ++ r, hr⟩) e he
      · exact text_under (p := symbolCell) (fun ⟨r, hr⟩ => hq ⟨[.field "metadata", .field "symbol"] ++ r, hr⟩) e he
    · exact text_under (p := baseCell) (fun ⟨r, hr⟩ => hq ⟨[.field "base_uri"] ++ r, hr⟩) e he
  refine ⟨_, e, c, h2, ?_, fun _ => h0, ?_, ?_, ?_, fun id => ?_, rfl⟩
  · show Erc721.init = Erc721Words.view token c []
    rw [view_frame (by simp [token]) hf]
    rfl
  · have h3' : ∀ q, some (c q) = Proofs.Constructors.final q ([] ++ Constructors.text nameCell (Logs.utf8 m.name) ++
        (Constructors.text symbolCell (Logs.utf8 m.symbol) ++ Constructors.text baseCell (Logs.utf8 m.baseUri))) (some 0#256) := fun q => by
      rw [List.nil_append, ← List.append_assoc]; exact h3 q
    have ho : ∀ e ∈ Constructors.text symbolCell (Logs.utf8 m.symbol) ++ Constructors.text baseCell (Logs.utf8 m.baseUri),
        e.1 ≠ nameCell ∧ ∀ i, e.1 ≠ nameCell ++ [.index i] := fun e he => by
      rcases List.mem_append.mp he with he | he
      · exact away (by simp [symbolCell, nameCell]) e he
      · exact away (by simp [baseCell, nameCell]) e he
    exact ⟨holds_final (c := fun _ => 0#256) h3' ho, hn,
      fun i => clean_final (c := fun _ => 0#256) h3' (by simp) (fun e he => (ho e he).2) fun _ => rfl⟩
  · exact ⟨holds_final (c := fun _ => 0#256) h3 (away (by simp [baseCell, symbolCell])), hy,
      fun i => clean_final (c := fun _ => 0#256) h3 (fun e he => (away (by simp [symbolCell, nameCell]) e he).2)
        (fun e he => (away (by simp [baseCell, symbolCell]) e he).2) fun _ => rfl⟩
  · have h3' : ∀ q, some (c q) = Proofs.Constructors.final q (Constructors.text nameCell (Logs.utf8 m.name) ++
        Constructors.text symbolCell (Logs.utf8 m.symbol) ++ Constructors.text baseCell (Logs.utf8 m.baseUri) ++ []) (some 0#256) := fun q => by
      rw [List.append_nil]; exact h3 q
    refine ⟨holds_final (c := fun _ => 0#256) h3' (by simp), hb,
      fun i => clean_final (c := fun _ => 0#256) h3' (fun e he => ?_) (by simp) fun _ => rfl⟩
    rcases List.mem_append.mp he with he | he
    · exact (away (by simp [baseCell, nameCell]) e he).2
    · exact (away (by simp [baseCell, symbolCell]) e he).2
  · exact has_nil fun q => hf _ (by simp [Under, uriCell])

end
end Verif.Proofs.Erc721UriDeployed
