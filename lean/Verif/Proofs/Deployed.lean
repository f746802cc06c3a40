import Verif.Spec.Deployed
import Verif.Props.StoragePrograms
import Verif.Props.Entry
/-! # Lemmas: programs on tables, the ERC-20 example on a table -/

namespace Verif.Proofs.Deployed
open Verif Verif.Storage Verif.Deployed Verif.Spec.Storage Verif.Spec.Constructors Verif.Spec.StoragePrograms Verif.Spec.Deployed
open Verif.Props.StoragePrograms (SameOutcome agree_write onCells_bind uses_bind uses_ite uses_code sim_code Wide wide)
open Verif.Abi (Val Decoder Outcome)
open Verif.Entry (Tx)

abbrev Table := List Step → U256

/-! ## Programs -/

section
variable {E V E' V' α β : Type}

/-- The cells the program uses when it is run on this table are in `S`. -/
def UsedBy (w : List Step → Nat) (S : List Step → Prop) : Prog E V α → Table → Prop
  | .ret _, _ => True
  | .fail _, _ => True
  | .get p k, c => S p ∧ UsedBy w S (k (c p)) c
  | .set p v k, c => S p ∧ UsedBy w S k (upd c p (v &&& mask (w p)))
  | .emit _ k, c => UsedBy w S k c

theorem used_of_uses {w : List Step → Nat} {S : List Step → Prop} : ∀ (m : Prog E V α) (c : Table) (_ : Uses S m), UsedBy w S m c
  | .ret _, _, _ => trivial
  | .fail _, _, _ => trivial
  | .get p k, c, h => ⟨h.1, used_of_uses (k (c p)) c (h.2 _)⟩
  | .set _ _ k, _, h => ⟨h.1, used_of_uses k _ h.2⟩
  | .emit _ k, c, h => used_of_uses k c h

theorem uses_mono {S S' : List Step → Prop} (hs : ∀ p, S p → S' p) : ∀ (m : Prog E V α) (_ : Uses S m), Uses S' m
  | .ret _, _ => trivial
  | .fail _, _ => trivial
  | .get _ k, h => ⟨hs _ h.1, fun v => uses_mono hs (k v) (h.2 v)⟩
  | .set _ _ k, h => ⟨hs _ h.1, uses_mono hs k h.2⟩
  | .emit _ k, h => uses_mono hs k h

theorem uses_lift {S : List Step → Prop} {fe : E → E'} {fv : V → V'} : ∀ (m : Prog E V α) (_ : Uses S m), Uses S (m.lift fe fv)
  | .ret _, _ => trivial
  | .fail _, _ => trivial
  | .get _ k, h => ⟨h.1, fun v => uses_lift (k v) (h.2 v)⟩
  | .set _ _ k, h => ⟨h.1, uses_lift k h.2⟩
  | .emit _ k, h => uses_lift k h

theorem onCells_lift {fe : E → E'} {fv : V → V'} (w : List Step → Nat) : ∀ (m : Prog E V α) (c : Table),
    onCells w (m.lift fe fv) c = match onCells w m c with
      | .error e => .error (fe e)
      | .ok r => .ok (r.1, r.2.1, r.2.2.map fv)
  | .ret _, _ => rfl
  | .fail _, _ => rfl
  | .get p k, c => onCells_lift w (k (c p)) c
  | .set p v k, c => onCells_lift w k _
  | .emit v k, c => by
    rw [Prog.lift, onCells, onCells, onCells_lift w k c]
    cases onCells w k c <;> rfl

/-- Cells that are not used do not change. -/
theorem onCells_frame {w : List Step → Nat} {S : List Step → Prop} : ∀ (m : Prog E V α) {c : Table} (_ : Uses S m)
    {r : α × Table × List V} (_ : onCells w m c = .ok r) {p : List Step} (_ : ¬ S p), r.2.1 p = c p
  | .ret _, _, _, _, h, _, _ => by cases h; rfl
  | .fail _, _, _, _, h, _, _ => by cases h
  | .get p k, c, hu, _, h, _, hp => onCells_frame (k (c p)) (hu.2 _) h hp
  | .set q v k, c, hu, r, h, p, hp => by
    rw [onCells_frame k hu.2 h hp]
    exact upd_ne _ _ fun e => hp (by rw [e]; exact hu.1)
  | .emit v k, c, hu, r, h, p, hp => by
    rw [onCells] at h
    cases hk : onCells w k c with
    | error e => rw [hk] at h; cases h
    | ok r' => rw [hk] at h; cases h; exact onCells_frame k hu hk hp

/-- `C100_programs` with only the cells that are used in this run. -/
theorem programs_run {K : Hash} {n : Nat} (hn : n < 2 ^ 256) {t : Ty} (ht : Ty.ok t = true)
    {S : List Step → Prop} (hS : Separate K n t S) : ∀ (m : Prog E V α) {st : Words} {c : Table} (_ : UsedBy (widthAt K t) S m c)
    (_ : Agree K t S st c), SameOutcome K t S (m.onWords K t st) (onCells (widthAt K t) m c)
  | .ret a, st, c, _, h => ⟨rfl, rfl, h⟩
  | .fail e, st, c, _, h => rfl
  | .get p k, st, c, hu, h => by
    obtain ⟨l, hl, _⟩ := hS.cells p hu.1
    rw [Prog.onWords, onCells, hl]
    show SameOutcome K t S ((k (Storage.read K st l)).onWords K t st) _
    rw [h p hu.1 l hl]
    exact programs_run hn ht hS (k (c p)) hu.2 h
  | .set p v k, st, c, hu, h => by
    obtain ⟨l, hl, _⟩ := hS.cells p hu.1
    rw [Prog.onWords, onCells, hl]
    exact programs_run hn ht hS k hu.2 (agree_write hn ht hS h hu.1 hl v)
  | .emit v k, st, c, hu, h => by
    rw [Prog.onWords, onCells]
    have := programs_run hn ht hS k hu h
    revert this
    cases k.onWords K t st with
    | error e =>
      cases onCells (widthAt K t) k c with
      | error e' => exact fun h => h
      | ok r' => exact fun h => h
    | ok r =>
      cases onCells (widthAt K t) k c with
      | error e' => exact fun h => h
      | ok r' => exact fun h => ⟨h.1, by show v :: r.2.2 = v :: r'.2.2; rw [h.2.1], h.2.2⟩

end

/-! ## The calls -/

/-- The events of the token. -/
def tokenLog (l : List Ev) : List Erc20.Event := l.filterMap fun | .token e => some e | _ => none
/-- The events of the pausable part. -/
def pausableLog (l : List Ev) : List Pausable.Event := l.filterMap fun | .pausable e => some e | _ => none

theorem tokenLog_append (a b : List Ev) : tokenLog (a ++ b) = tokenLog a ++ tokenLog b := List.filterMap_append
theorem pausableLog_append (a b : List Ev) : pausableLog (a ++ b) = pausableLog a ++ pausableLog b := List.filterMap_append
theorem tokenLog_token (l : List Erc20.Event) : tokenLog (l.map .token) = l := by
  induction l with
  | nil => rfl
  | cons a l ih => exact congrArg (a :: ·) ih
theorem pausableLog_token (l : List Erc20.Event) : pausableLog (l.map .token) = [] := by
  induction l with
  | nil => rfl
  | cons a l ih => exact ih

/-- The state a table stands for. -/
def view (c : Table) (log : List Ev) : Erc20Example.State :=
  { erc20 := Props.StoragePrograms.view token c (tokenLog log), cap := c capCell,
    pausable := { paused := decide (c pausedCell ≠ 0#256), log := pausableLog log } }

/-- The cells that calls use. -/
def Core (S : List Address) (p : List Step) : Prop := Accounts token S p ∨ p = capCell ∨ p = pausedCell

/-- The sizes of the cells. -/
structure Sizes (w : List Step → Nat) : Prop where
  token : Wide w token
  paused : w pausedCell = 1

theorem not_token {S : List Address} {p : List Step} (h : Accounts token S p) : p ≠ capCell ∧ p ≠ pausedCell := by
  rcases h with rfl | ⟨a, _, rfl⟩ | ⟨a, _, b, _, rfl⟩ <;>
    simp [Erc20Words.supply, Erc20Words.balance, Erc20Words.allowance, token, capCell, pausedCell]

/-- A program does to a table what `f` does to the state it stands for. -/
def Sim (w : List Step → Nat) (m : Prog Erc20Example.Err Ev Unit) (f : Erc20Example.State → Except Erc20Example.Err Erc20Example.State) : Prop :=
  ∀ c log, match onCells w m c with
    | .error e => f (view c log) = .error e
    | .ok r => f (view c log) = .ok (view r.2.1 (log ++ r.2.2))

theorem named_self (op : Address × Erc20.Call) : ∀ a ∈ named op, a ∈ named op := fun _ h => h

theorem sim_inner {w : List Step → Nat} (hw : Sizes w) (caller : Address) (c : Erc20.Call) :
    Sim w (inner caller c) fun s => Erc20Example.liftErc20 s (Erc20.exec s.erc20 (caller, c)) := by
  intro t log
  have h1 := sim_code hw.token (caller, c) t (tokenLog log)
  unfold inner
  rw [onCells_lift]
  cases hm : onCells w (Erc20Words.code token caller c) t with
  | error e =>
    rw [hm] at h1
    dsimp only at h1 ⊢
    show Erc20Example.liftErc20 _ (Erc20.exec (Props.StoragePrograms.view token t (tokenLog log)) (caller, c)) = _
    rw [h1]
    rfl
  | ok r =>
    rw [hm] at h1
    dsimp only at h1 ⊢
    show Erc20Example.liftErc20 _ (Erc20.exec (Props.StoragePrograms.view token t (tokenLog log)) (caller, c)) = _
    rw [h1]
    have hf : ∀ p, ¬ Accounts token (named (caller, c)) p → r.2.1 p = t p :=
      fun p hp => onCells_frame _ (uses_code (named_self _)) hm hp
    have hc : r.2.1 capCell = t capCell := hf _ fun h => (not_token h).1 rfl
    have hp : r.2.1 pausedCell = t pausedCell := hf _ fun h => (not_token h).2 rfl
    unfold view Erc20Example.liftErc20
    rw [tokenLog_append, pausableLog_append, tokenLog_token, pausableLog_token, hc, hp, List.append_nil]

theorem sim_guard {w : List Step → Nat} {m : Prog Erc20Example.Err Ev Unit}
    {f : Erc20Example.State → Except Erc20Example.Err Erc20Example.State} (h : Sim w m f) :
    Sim w (whenNotPaused.bind fun _ => m) fun s => (Erc20Example.whenNotPaused s) >>= fun _ => f s := by
  intro c log
  have h1 := h c log
  show match onCells w ((if c pausedCell ≠ 0#256 then Prog.fail _ else Prog.ret ()).bind fun _ => m) c with
    | .error e => ((Erc20Example.whenNotPaused (view c log)) >>= fun _ => f (view c log)) = .error e
    | .ok r => ((Erc20Example.whenNotPaused (view c log)) >>= fun _ => f (view c log)) = .ok (view r.2.1 (log ++ r.2.2))
  have e : Erc20Example.whenNotPaused (view c log) = if c pausedCell ≠ 0#256 then .error (.pausable .enforcedPause) else .ok () := by
    unfold Erc20Example.whenNotPaused Pausable.whenNotPaused view
    by_cases hp : c pausedCell ≠ 0#256 <;> simp [hp]
  rw [e]
  by_cases hp : c pausedCell ≠ 0#256
  · rw [if_pos hp, if_pos hp]
    rfl
  · rw [if_neg hp, if_neg hp]
    exact h1

theorem sim_paused {w : List Step → Nat} (hw : Sizes w) (v : U256) (hv : v &&& mask 1 = v) (e : Pausable.Event) :
    Sim w (.set pausedCell v (.emit (.pausable e) (.ret ()))) fun s =>
      .ok { s with pausable := { paused := decide (v ≠ 0#256), log := s.pausable.log ++ [e] } } := by
  intro c log
  show _ = Except.ok (view (upd c pausedCell (v &&& mask (w pausedCell))) (log ++ [.pausable e]))
  rw [hw.paused, hv]
  have hne : ∀ S p, Accounts token S p → upd c pausedCell v p = c p := fun S p h => upd_ne _ _ (not_token h).2
  have ht : Props.StoragePrograms.view token (upd c pausedCell v) (tokenLog log) =
      Props.StoragePrograms.view token c (tokenLog log) := by
    unfold Props.StoragePrograms.view
    rw [hne [] _ (.inl rfl), funext fun a => hne [a] (Erc20Words.balance token a) (.inr (.inl ⟨a, by simp, rfl⟩)),
      funext fun a => funext fun b => hne [a, b] (Erc20Words.allowance token a b) (.inr (.inr ⟨a, by simp, b, by simp, rfl⟩))]
  unfold view
  rw [tokenLog_append, pausableLog_append, upd_same, show tokenLog [.pausable e] = [] from rfl, List.append_nil, ht,
    upd_ne _ _ (show capCell ≠ pausedCell by decide)]
  rfl

theorem sim_guard' {w : List Step → Nat} {m : Prog Erc20Example.Err Ev Unit}
    {f : Erc20Example.State → Except Erc20Example.Err Erc20Example.State} (h : Sim w m f) :
    Sim w (whenPaused.bind fun _ => m) fun s => if s.pausable.paused then f s else .error (.pausable .expectedPause) := by
  intro c log
  have h1 := h c log
  show match onCells w ((if c pausedCell ≠ 0#256 then Prog.ret () else Prog.fail _).bind fun _ => m) c with
    | .error e => (if decide (c pausedCell ≠ 0#256) = true then f (view c log) else .error (.pausable .expectedPause)) = .error e
    | .ok r => (if decide (c pausedCell ≠ 0#256) = true then f (view c log) else .error (.pausable .expectedPause)) =
      .ok (view r.2.1 (log ++ r.2.2))
  by_cases hp : c pausedCell ≠ 0#256
  · rw [if_pos hp, if_pos (decide_eq_true hp)]
    exact h1
  · rw [if_neg hp, if_neg (by simpa using hp)]
    rfl

theorem sim_call {w : List Step → Nat} (hw : Sizes w) (caller : Address) (call : Erc20Example.Call) :
    Sim w (code caller call) fun s => Erc20Example.exec s (caller, call) := by
  cases call with
  | pause =>
    have h := sim_guard (sim_paused hw 1#256 (by decide) (.paused caller))
    have e : (fun s => Erc20Example.exec s (caller, .pause)) = fun s => (Erc20Example.whenNotPaused s) >>= fun _ =>
        .ok { s with pausable := { paused := decide (1#256 ≠ 0#256), log := s.pausable.log ++ [.paused caller] } } := by
      funext s
      obtain ⟨a, b, p, l⟩ := s
      cases p <;> rfl
    rw [e]
    exact h
  | unpause =>
    have h := sim_guard' (sim_paused hw 0#256 (by decide) (.unpaused caller))
    have e : (fun s => Erc20Example.exec s (caller, .unpause)) = fun s =>
        if s.pausable.paused then
          .ok { s with pausable := { paused := decide (0#256 ≠ 0#256), log := s.pausable.log ++ [.unpaused caller] } }
        else .error (.pausable .expectedPause) := by
      funext s
      obtain ⟨a, b, p, l⟩ := s
      cases p <;> rfl
    rw [e]
    exact h
  | token t =>
    cases t with
    | approve sp v => exact sim_inner hw caller (.approve sp v)
    | transfer dst v => exact sim_guard (sim_inner hw caller (.transfer dst v))
    | transferFrom src dst v => exact sim_guard (sim_inner hw caller (.transferFrom src dst v))
    | burn v => exact sim_guard (sim_inner hw caller (.burn v))
    | burnFrom a v => exact sim_guard (sim_inner hw caller (.burnFrom a v))
    | mint a v =>
      have e : (fun s => Erc20Example.exec s (caller, .token (.mint a v))) = fun s =>
          (Erc20Example.whenNotPaused s) >>= fun _ => match checkedAdd (Erc20.totalSupplyOf s.erc20) v with
            | none => .error .panic
            | some t => if s.cap < t then .error (.exceededCap t s.cap)
              else Erc20Example.liftErc20 s (Erc20.mint s.erc20 a v) := by
        funext s
        show Erc20Example.mint s a v = _
        unfold Erc20Example.mint
        congr 1
        funext _
        cases checkedAdd (Erc20.totalSupplyOf s.erc20) v with
        | none => rfl
        | some t =>
          show (if s.cap < t then _ else _) = _
          by_cases hc : s.cap < t
          · rw [if_pos hc]; dsimp only; rw [if_pos hc]; rfl
          · rw [if_neg hc]; dsimp only; rw [if_neg hc]
      rw [e]
      refine sim_guard ?_
      intro c log
      have h := sim_inner hw caller (.mint a v) c log
      have e : Erc20.totalSupplyOf (view c log).erc20 = c (Erc20Words.supply token) := rfl
      have e' : (view c log).cap = c capCell := rfl
      dsimp only
      rw [e, e', onCells, onCells]
      cases checkedAdd (c (Erc20Words.supply token)) v with
      | none => rfl
      | some t =>
        dsimp only
        by_cases hc : c capCell < t
        · rw [if_pos hc, if_pos hc]; rfl
        · rw [if_neg hc, if_neg hc]; exact h

/-- Accounts that a call names. -/
def accounts (caller : Address) : Erc20Example.Call → List Address
  | .token c => named (caller, c)
  | _ => []

theorem uses_guard {S : List Address} {m : Prog Erc20Example.Err Ev Unit} (h : Uses (Core S) m) :
    Uses (Core S) (whenNotPaused.bind fun _ => m) :=
  uses_bind ⟨.inr (.inr rfl), fun _ => uses_ite trivial trivial⟩ fun _ => h

theorem uses_inner {S : List Address} {caller : Address} {c : Erc20.Call} (h : ∀ a ∈ named (caller, c), a ∈ S) :
    Uses (Core S) (inner caller c) :=
  uses_lift _ (uses_mono (fun _ => Or.inl) _ (uses_code h))

theorem uses_call {S : List Address} {caller : Address} {call : Erc20Example.Call} (h : ∀ a ∈ accounts caller call, a ∈ S) :
    Uses (Core S) (code caller call) := by
  cases call with
  | pause => exact uses_guard ⟨.inr (.inr rfl), trivial⟩
  | unpause => exact uses_bind ⟨.inr (.inr rfl), fun _ => uses_ite trivial trivial⟩ fun _ => ⟨.inr (.inr rfl), trivial⟩
  | token t =>
    cases t with
    | approve sp v => exact uses_inner h
    | transfer dst v => exact uses_guard (uses_inner h)
    | transferFrom src dst v => exact uses_guard (uses_inner h)
    | burn v => exact uses_guard (uses_inner h)
    | burnFrom a v => exact uses_guard (uses_inner h)
    | mint a v =>
      refine uses_guard ⟨.inr (.inl rfl), fun cap => ⟨.inl (.inl rfl), fun t => ?_⟩⟩
      dsimp only
      cases checkedAdd t v with
      | none => trivial
      | some s => exact uses_ite trivial (uses_inner h)

/-! ## Strings -/

section
open Verif.Proofs.Constructors (head chunks short_head short_len)
open Verif.Constructors (chunk text)
variable {E V α β : Type}

/-- The table holds a string. -/
structure Holds (c : Table) (p : List Step) (bs : Bytes) : Prop where
  head : c p = head bs
  chunks : ¬ bs.length < 32 → ∀ i, i < (bs.length + 31) / 32 → c (p ++ [.index i]) = chunk bs i

theorem wordsFrom_run (w : List Step → Nat) (p : List Step) (c : Table) : ∀ n i,
    onCells w (wordsFrom p i n : Prog E V _) c = .ok ((List.range' i n).map fun j => c (p ++ [.index j]), c, [])
  | 0, _ => rfl
  | n + 1, i => by
    rw [wordsFrom, onCells, onCells_bind, wordsFrom_run w p c n (i + 1)]
    rfl

theorem used_bind {w : List Step → Nat} {S : List Step → Prop} : ∀ {m : Prog E V α} {g : α → Prog E V β} {c : Table}
    (_ : UsedBy w S m c) (_ : ∀ r, onCells w m c = .ok r → UsedBy w S (g r.1) r.2.1), UsedBy w S (m.bind g) c
  | .ret a, _, _, _, h => h _ rfl
  | .fail _, _, _, _, _ => trivial
  | .get p k, _, c, hm, h => ⟨hm.1, used_bind hm.2 h⟩
  | .set p v k, _, c, hm, h => ⟨hm.1, used_bind hm.2 h⟩
  | .emit v k, g, c, hm, h => used_bind (m := k) hm fun r hr => h (r.1, r.2.1, v :: r.2.2) (by rw [onCells, hr]; rfl)

theorem wordsFrom_used {w : List Step → Nat} {S : List Step → Prop} {p : List Step} {c : Table} : ∀ n i
    (_ : ∀ j, i ≤ j → j < i + n → S (p ++ [.index j])), UsedBy w S (wordsFrom p i n : Prog E V _) c
  | 0, _, _ => trivial
  | n + 1, i, h =>
    ⟨h i (Nat.le_refl _) (by omega), used_bind (wordsFrom_used n (i + 1) fun j h1 h2 => h j (by omega) (by omega)) fun _ _ => trivial⟩

theorem string_run {c : Table} {p : List Step} {bs : Bytes} (h : Holds c p bs) (hb : bs.length < 2 ^ 255) (w : List Step → Nat)
    {S : List Step → Prop} (hS : ∀ q ∈ (text p bs).map Prod.fst, S q) :
    onCells w (stringBytes p : Prog E V _) c = .ok (bs, c, []) ∧ UsedBy w S (stringBytes p : Prog E V _) c := by
  have hp : S p := by
    refine hS p ?_
    unfold text
    split <;> simp
  by_cases hlen : bs.length < 32
  · have e := short_len hlen
    have e0 : (head bs).getLsbD 0 = false := by
      have := congrArg (fun x => BitVec.getLsbD x 0) e
      rw [BitVec.getLsbD_setWidth, BitVec.getLsbD_ofNat] at this
      simpa using this
    have e2 : ((BitVec.ofNat 8 (2 * bs.length)) >>> 1).toNat = bs.length := by
      rw [BitVec.toNat_ushiftRight, BitVec.toNat_ofNat, Nat.mod_eq_of_lt (by omega), Nat.shiftRight_one]
      omega
    unfold stringBytes
    rw [onCells, UsedBy, h.head, if_neg (by rw [e0]; decide), e, short_head hlen, e2, List.append_assoc, List.take_left]
    exact ⟨rfl, hp, trivial⟩
  · have eh : head bs = BitVec.ofNat 256 (2 * bs.length + 1) := by unfold head; rw [if_neg hlen]
    have e0 : (head bs).getLsbD 0 = true := by
      rw [eh, BitVec.getLsbD_ofNat]
      simp
    have e2 : (head bs >>> 1).toNat = bs.length := by
      rw [eh, BitVec.toNat_ushiftRight, BitVec.toNat_ofNat, Nat.mod_eq_of_lt (by omega), Nat.shiftRight_one]
      omega
    unfold stringBytes
    rw [onCells, UsedBy, h.head, if_pos e0, e2]
    constructor
    · rw [onCells_bind, wordsFrom_run]
      show Except.ok _ = _
      have : (List.range' 0 ((bs.length + 31) / 32)).map (fun j => c (p ++ [.index j])) =
          (List.range ((bs.length + 31) / 32)).map (chunk bs) := by
        rw [← List.range_eq_range']
        exact List.map_congr_left fun i hi => h.chunks hlen i (List.mem_range.mp hi)
      dsimp only
      rw [this, (chunks bs _).2, List.take_of_length_le (by omega)]
      rfl
    · refine ⟨hp, used_bind (wordsFrom_used _ _ fun j _ hj => hS _ ?_) fun _ _ => trivial⟩
      unfold text
      rw [if_neg hlen, List.map_cons, List.map_map]
      exact List.mem_cons_of_mem _ (List.mem_map.mpr ⟨j, List.mem_range.mpr (by omega), rfl⟩)

end

/-! ## The functions -/

/-- What a function does on a table and what it does on the state the table stands for. -/
def Row (w : List Step → Nat) (S : List Address) (name symbol : List Char) (c : Table) (log : List Ev)
    (m : Prog (Option Bytes) Ev (List Val)) (x : Except (Option Bytes) (Erc20Example.State × List Val)) : Prop :=
  UsedBy w (Cells S name symbol) m c ∧ match onCells w m c, x with
    | .error e, .error e' => e = e'
    | .ok r, .ok y => y.2 = r.1 ∧ y.1 = view r.2.1 (log ++ r.2.2) ∧ ∀ p, ¬ Core S p → r.2.1 p = c p
    | _, _ => False

section
variable {w : List Step → Nat} {S : List Address} {name symbol : List Char} {c : Table} {log : List Ev}

theorem row_fail : Row w S name symbol c log (.fail none) (.error none) := ⟨trivial, rfl⟩

theorem row_ret (r : List Val) : Row w S name symbol c log (.ret r) (.ok (view c log, r)) :=
  ⟨trivial, rfl, (congrArg (view c) (List.append_nil log)).symm, fun _ _ => rfl⟩

theorem row_get {p : List Step} (hp : Cells S name symbol p) (g : U256 → List Val) :
    Row w S name symbol c log (.get p fun v => .ret (g v)) (.ok (view c log, g (c p))) :=
  ⟨⟨hp, trivial⟩, rfl, (congrArg (view c) (List.append_nil log)).symm, fun _ _ => rfl⟩

theorem core_cells {p : List Step} (h : Core S p) : Cells S name symbol p := by
  rcases h with h | h | h
  · exact .inl h
  · exact .inr (.inl h)
  · exact .inr (.inr (.inl h))

theorem row_call (hw : Sizes w) (K : Hash) {caller : Address} {call : Erc20Example.Call}
    (h : ∀ a ∈ accounts caller call, a ∈ S) (res : List Val) :
    Row w S name symbol c log (Deployed.finish K caller res call)
      (Entry.finish K Revert.erc20Example res (Erc20Example.exec (view c log) (caller, call))) := by
  have hu : Uses (Core S) (Deployed.finish K caller res call) := uses_bind (uses_lift _ (uses_call h)) fun _ => trivial
  refine ⟨used_of_uses _ _ (uses_mono (fun _ => core_cells) _ hu), ?_⟩
  have h1 := sim_call hw caller call c log
  have hf := fun r => onCells_frame (w := w) (c := c) (r := r) _ hu
  revert hf
  have e : onCells w (Deployed.finish K caller res call) c = match onCells w (code caller call) c with
      | .error e => .error ((Revert.erc20Example e).data K)
      | .ok r => .ok (res, r.2.1, r.2.2) := by
    unfold Deployed.finish
    rw [onCells_bind, onCells_lift]
    cases onCells w (code caller call) c with
    | error e => rfl
    | ok r =>
      show Except.ok (res, r.2.1, r.2.2.map id ++ []) = _
      rw [List.map_id, List.append_nil]
  rw [e]
  cases hm : onCells w (code caller call) c with
  | error e =>
    rw [hm] at h1
    dsimp only at h1
    intro _
    rw [h1]
    rfl
  | ok r =>
    rw [hm] at h1
    dsimp only at h1
    intro hf
    rw [h1]
    exact ⟨rfl, rfl, fun p hp => hf _ rfl hp⟩

theorem row_string {p : List Step} {s : List Char} (h : Holds c p (Logs.utf8 s)) (hb : (Logs.utf8 s).length < 2 ^ 255)
    (hS : ∀ q ∈ (Constructors.text p (Logs.utf8 s)).map Prod.fst, Cells S name symbol q) (U : Utf8) :
    Row w S name symbol c log ((stringBytes p).bind fun b => .ret [.string (U.read b)]) (.ok (view c log, [.string s])) := by
  obtain ⟨h1, h2⟩ := string_run (E := Option Bytes) (V := Ev) h hb w hS
  refine ⟨used_bind h2 fun _ _ => trivial, ?_⟩
  rw [onCells_bind, h1]
  show _ ∧ _ ∧ _
  refine ⟨?_, (congrArg (view c) (List.append_nil log)).symm, fun _ _ => rfl⟩
  show [Val.string s] = [Val.string (U.read (Logs.utf8 s))]
  rw [U.valid]

theorem dispatch_row {t f : String} {args : List Val} {l : List (String × String × (List Val → Prog (Option Bytes) Ev (List Val)))}
    {l' : List (String × String × (List Val → Except (Option Bytes) (Erc20Example.State × List Val)))}
    (h : List.Forall₂ (fun r r' => r.1 = r'.1 ∧ r.2.1 = r'.2.1 ∧ Row w S name symbol c log (r.2.2 args) (r'.2.2 args)) l l') :
    Row w S name symbol c log (Deployed.dispatch t f args l) (Entry.dispatch t f args l') := by
  unfold Deployed.dispatch Entry.dispatch
  induction h with
  | nil => exact row_fail
  | cons h _ ih =>
    obtain ⟨h1, h2, h3⟩ := h
    rw [List.find?_cons, List.find?_cons, h1, h2]
    cases decide (_ = t) && decide (_ = f) with
    | true => exact h3
    | false => exact ih

/-- A function that takes these arguments and no others. -/
syntax "row" term : tactic
macro_rules
  | `(tactic| row $t) => `(tactic| (
      dsimp only
      split
      · exact $t
      · next h =>
        split
        · first | exact absurd rfl h | exact absurd rfl (h _) | exact absurd rfl (h _ _) | exact absurd rfl (h _ _ _)
        · exact row_fail))

theorem row_program (hw : Sizes w) (K : Hash) (U : Utf8) {caller : Address} (hc : caller ∈ S)
    (h1 : Holds c nameCell (Logs.utf8 name)) (h2 : (Logs.utf8 name).length < 2 ^ 255)
    (h3 : Holds c symbolCell (Logs.utf8 symbol)) (h4 : (Logs.utf8 symbol).length < 2 ^ 255)
    (t f : String) {args : List Val} (ha : ∀ a, Val.address a ∈ args → a ∈ S) :
    Row w S name symbol c log (program K U caller t f args)
      (Entry.erc20Example K ⟨name, symbol⟩ caller t f args (view c log)) := by
  unfold program Entry.erc20Example
  refine dispatch_row
    (.cons ⟨rfl, rfl, ?_⟩ (.cons ⟨rfl, rfl, ?_⟩ (.cons ⟨rfl, rfl, ?_⟩ (.cons ⟨rfl, rfl, ?_⟩ (.cons ⟨rfl, rfl, ?_⟩ (.cons ⟨rfl, rfl, ?_⟩ (.cons ⟨rfl, rfl, ?_⟩ (.cons ⟨rfl, rfl, ?_⟩ (.cons ⟨rfl, rfl, ?_⟩ (.cons ⟨rfl, rfl, ?_⟩ (.cons ⟨rfl, rfl, ?_⟩ (.cons ⟨rfl, rfl, ?_⟩ (.cons ⟨rfl, rfl, ?_⟩ (.cons ⟨rfl, rfl, ?_⟩ (.cons ⟨rfl, rfl, ?_⟩ (.cons ⟨rfl, rfl, ?_⟩ (.cons ⟨rfl, rfl, ?_⟩ .nil)))))))))))))))))
  · row row_ret _
  · row row_call hw K (by simp_all [accounts, named]) _
  · row row_call hw K (by simp_all [accounts, named]) _
  · row row_call hw K (by simp_all [accounts, named]) _
  · row row_call hw K (by simp_all [accounts, named]) _
  · row row_call hw K (by simp_all [accounts, named]) _
  · row row_ret _
  · row row_call hw K (by simp [accounts]) _
  · row row_call hw K (by simp [accounts]) _
  · row row_get (.inl (.inl rfl)) _
  · row row_get (.inl (.inr (.inl ⟨_, ha _ (by simp), rfl⟩))) _
  · row row_get (.inl (.inr (.inr ⟨_, ha _ (by simp), _, ha _ (by simp), rfl⟩))) _
  · row row_call hw K (by simp_all [accounts, named]) _
  · row row_string h1 h2 (fun q hq => .inr (.inr (.inr (.inl hq)))) U
  · row row_string h3 h4 (fun q hq => .inr (.inr (.inr (.inr hq)))) U
  · row row_get (.inr (.inl rfl)) _
  · row row_get (.inr (.inr (.inl rfl))) (fun v => [.bool (decide (v ≠ 0#256))])

end

/-! ## The contract -/

/-- The words and the state agree on everything the accounts can see. -/
def Inv (K : Hash) (S : List Address) (name symbol : List Char) (w : Deployed.State) (s : Erc20Example.State) : Prop :=
  ∃ c, Agree K erc20Example (Cells S name symbol) w.words c ∧ Holds c nameCell (Logs.utf8 name) ∧
    Holds c symbolCell (Logs.utf8 symbol) ∧ view c w.log = s ∧ ∀ p, ¬ Core S p → Accounts token Finset.univ.toList p → c p = 0#256

theorem sizes (K : Hash) : Sizes (widthAt K erc20Example) := ⟨wide (b := none) (d := 0) rfl, rfl⟩

theorem text_not_core {S : List Address} {p : List Step} (h : ∃ q, p = Step.field "metadata" :: q) : ¬ Core S p := by
  obtain ⟨q, rfl⟩ := h
  rintro ((h | ⟨a, _, h⟩ | ⟨a, _, b, _, h⟩) | h | h) <;>
    simp [Erc20Words.supply, Erc20Words.balance, Erc20Words.allowance, token, capCell, pausedCell] at h

theorem holds_frame {S : List Address} {c c' : Table} (hf : ∀ p, ¬ Core S p → c' p = c p) {p : List Step}
    (hp : ∃ q, p = Step.field "metadata" :: q) {bs : Bytes} (h : Holds c p bs) : Holds c' p bs := by
  refine ⟨by rw [hf p (text_not_core hp)]; exact h.head, fun hl i hi => ?_⟩
  rw [hf _ (text_not_core ?_)]
  · exact h.chunks hl i hi
  · obtain ⟨q, rfl⟩ := hp
    exact ⟨_, rfl⟩

section
variable {K : Hash} {n : Nat} {S : List Address} {name symbol : List Char}

theorem inv_step (hn : n < 2 ^ 256) (hS : Separate K n erc20Example (Cells S name symbol))
    (h2 : (Logs.utf8 name).length < 2 ^ 255) (h4 : (Logs.utf8 symbol).length < 2 ^ 255)
    (D : Decoder) (U : Utf8) {w : Deployed.State} {s : Erc20Example.State} (h : Inv K S name symbol w s) {tx : Tx}
    (hx : ∀ a, Names K D tx a → a ∈ S) :
    answer (Deployed.entry K D U w tx) =
      answer (Entry.erc20ExampleEntry K D ⟨name, symbol⟩ tx.caller s tx.value tx.input) ∧
    Inv K S name symbol ((Deployed.entry K D U w tx).after w)
      ((Entry.erc20ExampleEntry K D ⟨name, symbol⟩ tx.caller s tx.value tx.input).after s) := by
  unfold Deployed.entry Entry.erc20ExampleEntry Abi.entry
  split
  · exact ⟨rfl, h⟩
  split
  · exact ⟨rfl, h⟩
  cases hr : Router.erc20Example.route K (Abi.selectorOf tx.input) with
  | none => exact ⟨rfl, h⟩
  | some r =>
    obtain ⟨t, f⟩ := r
    dsimp only
    cases hd : D.read (Abi.flat f.args) (tx.input.drop 4) with
    | none => exact ⟨rfl, h⟩
    | some args =>
      dsimp only
      obtain ⟨c, hag, hn1, hn2, hv, hz⟩ := h
      have ha : ∀ a, Val.address a ∈ args → a ∈ S := fun a h => hx a (.inr ⟨t, f, args, hr, hd, h⟩)
      obtain ⟨hu, hrow⟩ := row_program (log := w.log) (sizes K) K U (hx tx.caller (.inl rfl)) hn1 h2 hn2 h4 t f.rustName ha
      have hrun := programs_run hn (t := erc20Example) (by decide) hS _ hu hag
      rw [hv] at hrow
      unfold onWords
      revert hrow hrun
      cases (program K U tx.caller t f.rustName args).onWords K erc20Example w.words with
      | error e =>
        cases onCells (widthAt K erc20Example) (program K U tx.caller t f.rustName args) c with
        | ok r => exact fun _ h => h.elim
        | error e' =>
          cases Entry.erc20Example K ⟨name, symbol⟩ tx.caller t f.rustName args s with
          | ok y => exact fun h _ => h.elim
          | error e'' =>
            intro h h'
            cases h
            cases h'
            exact ⟨rfl, c, hag, hn1, hn2, hv, hz⟩
      | ok r =>
        cases onCells (widthAt K erc20Example) (program K U tx.caller t f.rustName args) c with
        | error e => exact fun _ h => h.elim
        | ok r' =>
          cases Entry.erc20Example K ⟨name, symbol⟩ tx.caller t f.rustName args s with
          | error e => exact fun h _ => h.elim
          | ok y =>
            rintro ⟨e1, e2, e3⟩ ⟨e4, e5, e6⟩
            obtain ⟨y1, y2⟩ := y
            refine ⟨?_, r'.2.1, e6, holds_frame e3 ⟨_, rfl⟩ hn1, holds_frame e3 ⟨_, rfl⟩ hn2, ?_, fun p hp hp' => ?_⟩
            · show Except.ok (Abi.encode r.1) = Except.ok (Abi.encode y2)
              rw [e4, ← e1]
            · show view r'.2.1 (w.log ++ r.2.2) = y1
              rw [e5]
              exact e2.symm
            · rw [e3 p hp]
              exact hz p hp hp'

theorem inv_run (hn : n < 2 ^ 256) (hS : Separate K n erc20Example (Cells S name symbol))
    (h2 : (Logs.utf8 name).length < 2 ^ 255) (h4 : (Logs.utf8 symbol).length < 2 ^ 255) (D : Decoder) (U : Utf8) :
    ∀ (txs : List Tx) {w : Deployed.State} {s : Erc20Example.State} (_ : Inv K S name symbol w s)
      (_ : ∀ tx ∈ txs, ∀ a, Names K D tx a → a ∈ S),
    Inv K S name symbol (Deployed.run K D U w txs) (Entry.erc20ExampleRun K D ⟨name, symbol⟩ s txs)
  | [], _, _, h, _ => h
  | tx :: txs, _, _, h, hx =>
    inv_run hn hS h2 h4 D U txs (inv_step hn hS h2 h4 D U h (hx tx List.mem_cons_self)).2
      fun tx' h' => hx tx' (List.mem_cons_of_mem _ h')

open Verif.Proofs.Constructors (final final_none final_append final_text_head final_text_chunk text_mem mask32 cell_index) in
/-- After deployment. -/
theorem inv_deploy (hn : n < 2 ^ 256) (hS : Separate K n erc20Example (Cells S name symbol)) {cap : U256} {w : Deployed.State}
    (hd : deploy K name symbol cap = some w) : Inv K S name symbol w (Erc20Example.init cap) := by
  generalize hW : Constructors.text nameCell (Logs.utf8 name) ++ Constructors.text symbolCell (Logs.utf8 symbol) ++
    [(capCell, cap), (pausedCell, 0#256)] = W
  have hst : Constructors.assign K erc20Example W Constructors.fresh = some w.words ∧ w.log = [] := by
    have h := Props.Constructors.C99_erc20 K (Logs.utf8 name) (Logs.utf8 symbol) cap
    unfold deploy at hd
    obtain ⟨ws, h1, h2⟩ := Option.bind_eq_some_iff.mp hd
    obtain ⟨st, h3, rfl⟩ := Option.map_eq_some_iff.mp h2
    rw [h1, Option.bind_some, h3] at h
    split at h
    · cases h
    · exact ⟨by rw [← hW]; exact h.symm, rfl⟩
  obtain ⟨hst, hlog⟩ := hst
  have apart_ : ∀ (p : List Step) (bs : Bytes) (q : List Step), (∃ r, p = Step.field "metadata" :: r) →
      (¬ ∃ r, q = Step.field "metadata" :: r) → ∀ w ∈ Constructors.text p bs, w.1 ≠ q := by
    rintro p bs q ⟨r, rfl⟩ hq w hw rfl
    rcases text_mem hw with e | ⟨i, _, e⟩ <;> exact hq ⟨_, e⟩
  have other : ∀ (bs : Bytes) (q : List Step), q = nameCell ∨ (∃ i, q = nameCell ++ [.index i]) →
      ∀ w ∈ Constructors.text symbolCell bs, w.1 ≠ q := by
    intro bs q hq w hw e
    rcases text_mem hw with e' | ⟨i, _, e'⟩ <;> rcases hq with rfl | ⟨j, rfl⟩ <;> rw [e'] at e <;>
      simp [nameCell, symbolCell] at e
  have rest : ∀ (q : List Step), (∃ r, q = Step.field "metadata" :: r) →
      ∀ w ∈ [(capCell, cap), (pausedCell, 0#256)], w.1 ≠ q := by
    rintro q ⟨r, rfl⟩ w hw e
    simp only [List.mem_cons, List.not_mem_nil, or_false] at hw
    rcases hw with rfl | rfl <;> simp [capCell, pausedCell] at e
  have memW : ∀ w ∈ W, Cells S name symbol w.1 := by
    intro w hw
    rw [← hW] at hw
    rcases List.mem_append.mp hw with hw | hw
    · rcases List.mem_append.mp hw with hw | hw
      · exact .inr (.inr (.inr (.inl (List.mem_map_of_mem hw))))
      · exact .inr (.inr (.inr (.inr (List.mem_map_of_mem hw))))
    · simp only [List.mem_cons, List.not_mem_nil, or_false] at hw
      rcases hw with rfl | rfl
      · exact .inr (.inl rfl)
      · exact .inr (.inr (.inl rfl))
  have acc : ∀ A p, Accounts token A p → final p W none = none := by
    intro A p hp
    have hm : ¬ ∃ r, p = Step.field "metadata" :: r := by
      rintro ⟨r, rfl⟩
      exact text_not_core ⟨r, rfl⟩ (Or.inl hp)
    rw [← hW, final_append, final_append, final_none (apart_ nameCell _ p ⟨_, rfl⟩ hm),
      final_none (apart_ symbolCell _ p ⟨_, rfl⟩ hm)]
    refine final_none fun w hw e => ?_
    simp only [List.mem_cons, List.not_mem_nil, or_false] at hw
    rcases hw with rfl | rfl
    · exact (not_token hp).1 e.symm
    · exact (not_token hp).2 e.symm
  have hcap : final capCell W none = some cap := by
    rw [← hW, final_append, final_append, final_none (apart_ nameCell _ capCell ⟨_, rfl⟩ (by simp [capCell])),
      final_none (apart_ symbolCell _ capCell ⟨_, rfl⟩ (by simp [capCell]))]
    rfl
  have hpaused : final pausedCell W none = some 0#256 := by
    rw [← hW, final_append, final_append, final_none (apart_ nameCell _ pausedCell ⟨_, rfl⟩ (by simp [pausedCell])),
      final_none (apart_ symbolCell _ pausedCell ⟨_, rfl⟩ (by simp [pausedCell]))]
    rfl
  refine ⟨fun p => (final p W none).getD 0#256, ?_, ⟨?_, ?_⟩, ⟨?_, ?_⟩, ?_, ?_⟩
  · intro p hp l hl
    rw [Props.Constructors.C99_reads K hn (t := erc20Example) (by decide) hst (fun w hw => hS.cells _ (memW w hw)) hl
      (hS.cells p hp) fun w hw hne => hS.clear _ (memW w hw) _ hp hne]
    have := Props.Constructors.left_final p W none
    rw [Option.getD_none] at this
    rw [this]
    have wid : l.ty.width = 32 ∨ p = pausedCell := by
      have key : widthAt K erc20Example p = l.ty.width := by unfold widthAt; rw [hl]; rfl
      have str : ∀ q : List Step, cell K erc20Example q = some ⟨none, (if q = nameCell then 3 else 4), 0, .string⟩ →
          ∀ bs, p ∈ (Constructors.text q bs).map Prod.fst → l.ty.width = 32 := by
        intro q hq bs h
        obtain ⟨w, hw, rfl⟩ := List.mem_map.mp h
        rcases text_mem hw with e | ⟨i, _, e⟩
        · rw [e] at hl; cases hq.symm.trans hl; rfl
        · rw [e] at hl
          have := (cell_index hq rfl i).symm.trans hl
          cases this
          rfl
      rcases hp with h | rfl | rfl | h | h
      · left
        rw [← key]
        have hw := (sizes K).token
        rcases h with rfl | ⟨a, _, rfl⟩ | ⟨a, _, b, _, rfl⟩
        · exact hw.supply
        · exact hw.balance a
        · exact hw.allowance a b
      · left; rw [← key]; rfl
      · right; rfl
      · left; exact str _ rfl _ h
      · left; exact str _ rfl _ h
    rcases wid with e | rfl
    · rw [e, mask32]
    · show _ = (final pausedCell W none).getD 0#256
      rw [hpaused]
      simp
  · show (final nameCell W none).getD 0#256 = _
    rw [← hW, final_append, final_append, final_none (rest nameCell ⟨_, rfl⟩), final_none (other _ nameCell (.inl rfl)), final_text_head]
    rfl
  · intro hl i hi
    show (final (nameCell ++ [.index i]) W none).getD 0#256 = _
    rw [← hW, final_append, final_append, final_none (rest (nameCell ++ [Step.index i]) ⟨_, rfl⟩), final_none (other _ _ (.inr ⟨i, rfl⟩)), final_text_chunk _ hl hi]
    rfl
  · show (final symbolCell W none).getD 0#256 = _
    rw [← hW, final_append, final_append, final_none (rest symbolCell ⟨_, rfl⟩), final_text_head]
    rfl
  · intro hl i hi
    show (final (symbolCell ++ [.index i]) W none).getD 0#256 = _
    rw [← hW, final_append, final_append, final_none (rest (symbolCell ++ [Step.index i]) ⟨_, rfl⟩), final_text_chunk _ hl hi]
    rfl
  · rw [hlog]
    have e : ∀ f : Table, f capCell = cap → f pausedCell = 0#256 → (∀ A p, Accounts token A p → f p = 0#256) →
        view f [] = Erc20Example.init cap := by
      intro f h1 h2 h3
      unfold view Props.StoragePrograms.view
      have hb := funext fun a => h3 [a] (Erc20Words.balance token a) (.inr (.inl ⟨a, by simp, rfl⟩))
      have ha := funext fun a => funext fun b => h3 [a, b] (Erc20Words.allowance token a b)
        (.inr (.inr ⟨a, by simp, b, by simp, rfl⟩))
      have hp : decide (f pausedCell ≠ 0#256) = false := by rw [h2]; rfl
      rw [hp, h1, hb, ha, h3 [] _ (.inl rfl)]
      rfl
    exact e _ (by rw [hcap]; rfl) (by rw [hpaused]; rfl) fun A p hp => by rw [acc A p hp]; rfl
  · intro p _ hp
    show (final p W none).getD 0#256 = _
    rw [acc _ p hp]
    rfl

end

end Verif.Proofs.Deployed
