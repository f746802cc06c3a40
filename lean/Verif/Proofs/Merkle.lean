import Verif.Spec.Merkle
import Verif.Props.Crypto
import Mathlib.Tactic.Ring
import Mathlib.Data.List.Perm.Basic
/-! # Proofs about Merkle proofs -/

namespace Verif.Proofs.Merkle
open Verif Verif.Merkle Verif.Spec.Merkle

/-! ## Byte order -/

theorem fromBytes_append (l : Bytes) (b : U8) : Ecdsa.fromBytes (l ++ [b]) = Ecdsa.fromBytes l * 256 + b.toNat := by
  unfold Ecdsa.fromBytes; rw [List.foldl_append]; rfl

theorem fromBytes_cons (b : U8) (l : Bytes) :
    Ecdsa.fromBytes (b :: l) = b.toNat * 256 ^ l.length + Ecdsa.fromBytes l := by
  have key : ∀ (l : Bytes) (a : Nat), l.foldl (fun acc b => acc * 256 + b.toNat) a =
      a * 256 ^ l.length + l.foldl (fun acc b => acc * 256 + b.toNat) 0 := by
    intro l
    induction l with
    | nil => intro a; simp
    | cons b l ih =>
      intro a
      rw [List.foldl_cons, List.foldl_cons, ih (a * 256 + b.toNat), ih (0 * 256 + b.toNat), List.length_cons, pow_succ]
      ring
  unfold Ecdsa.fromBytes
  rw [List.foldl_cons, key l (0 * 256 + b.toNat)]
  ring

theorem fromBytes_lt (l : Bytes) : Ecdsa.fromBytes l < 256 ^ l.length := by
  induction l with
  | nil => simp [Ecdsa.fromBytes]
  | cons b l ih =>
    rw [fromBytes_cons, List.length_cons, pow_succ]
    have hb := b.isLt
    have : b.toNat * 256 ^ l.length ≤ 255 * 256 ^ l.length := Nat.mul_le_mul_right _ (by omega)
    omega

theorem fromBytes_be32 (x : B256) : Ecdsa.fromBytes (be32 x) = x.toNat := by
  have key : ∀ n, n ≤ 32 → Ecdsa.fromBytes ((List.range n).map fun i => x.extractLsb' (8 * (31 - i)) 8) =
      x.toNat / 256 ^ (32 - n) := by
    intro n
    induction n with
    | zero =>
      intro _
      have : x.toNat < 256 ^ 32 := by have := x.isLt; norm_num at this ⊢; exact this
      rw [show 32 - 0 = 32 from rfl, Nat.div_eq_of_lt this]; rfl
    | succ n ih =>
      intro hn
      rw [List.range_succ, List.map_append, List.map_singleton, fromBytes_append, ih (by omega),
        BitVec.extractLsb'_toNat, Nat.shiftRight_eq_div_pow]
      have e1 : 32 - n = (31 - n) + 1 := by omega
      have e2 : 32 - (n + 1) = 31 - n := by omega
      have e3 : 2 ^ (8 * (31 - n)) = 256 ^ (31 - n) := by rw [pow_mul]; rfl
      rw [e1, e2, e3, pow_succ, ← Nat.div_div_eq_div_mul]
      omega
  have := key 32 le_rfl
  simpa [be32] using this

theorem lexLt_iff (l m : Bytes) (h : l.length = m.length) :
    lexLt l m = true ↔ Ecdsa.fromBytes l < Ecdsa.fromBytes m := by
  induction l generalizing m with
  | nil =>
    have : m = [] := List.eq_nil_of_length_eq_zero h.symm
    subst this
    simp [lexLt]
  | cons a l ih =>
    rcases m with _ | ⟨b, m⟩
    · exact absurd h (by simp)
    · have hl : l.length = m.length := by simpa using h
      rw [fromBytes_cons, fromBytes_cons, hl]
      have h1 := fromBytes_lt l
      have h2 := fromBytes_lt m
      rw [hl] at h1
      unfold lexLt
      by_cases hab : a = b
      · rw [if_pos hab, ih m hl, hab]; omega
      · rw [if_neg hab, decide_eq_true_eq]
        have hne : a.toNat ≠ b.toNat := fun e => hab (BitVec.eq_of_toNat_eq e)
        have hlt : a < b ↔ a.toNat < b.toNat := Iff.rfl
        rw [hlt]
        generalize 256 ^ m.length = w at *
        constructor
        · intro h
          have : (a.toNat + 1) * w ≤ b.toNat * w := Nat.mul_le_mul_right _ h
          rw [Nat.succ_mul] at this; omega
        · intro h
          by_contra hc
          have : (b.toNat + 1) * w ≤ a.toNat * w := Nat.mul_le_mul_right _ (by omega)
          rw [Nat.succ_mul] at this; omega

theorem lexLt_be32 (a b : B256) : lexLt (be32 a) (be32 b) = decide (a < b) := by
  rw [Bool.eq_iff_iff, lexLt_iff _ _ (by rw [be32_length, be32_length]), fromBytes_be32, fromBytes_be32]
  simp [BitVec.lt_def]

variable {S : Type} (B : Builder S B256)

theorem sorted_comm (a b : B256) : sorted a b = sorted b a := by
  unfold sorted
  by_cases h : a ≤ b
  · rw [if_pos h]
    by_cases h2 : b ≤ a
    · have : a = b := BitVec.eq_of_toNat_eq (Nat.le_antisymm h h2)
      rw [this, if_pos (by rw [BitVec.le_def])]
    · rw [if_neg h2]
  · have h2 : b ≤ a := by rw [BitVec.le_def] at *; omega
    rw [if_neg h, if_pos h2]

theorem sorted_eq {a b c d : B256} (h : sorted a b = sorted c d) : (a = c ∧ b = d) ∨ (a = d ∧ b = c) := by
  unfold sorted at h
  split at h <;> split at h <;> simp only [Prod.mk.injEq] at h <;> tauto

theorem comm_eq (a b : B256) : commutativeHashPair B a b B.init = pairHash B (sorted a b) := by
  unfold commutativeHashPair
  rw [lexLt_be32]
  unfold sorted
  by_cases h : b < a
  · rw [if_pos (by simpa using h), if_neg (by rw [BitVec.le_def]; rw [BitVec.lt_def] at h; omega)]; rfl
  · rw [if_neg (by simpa using h), if_pos (by rw [BitVec.le_def]; rw [BitVec.lt_def] at h; omega)]; rfl

/-! ## Single proofs -/

theorem pathTree_append (x : B256) (p : List B256) (s : B256) :
    pathTree x (p ++ [s]) = .node (pathTree x p) (.leaf s) := by
  unfold pathTree; rw [List.foldl_append]; rfl

theorem fold_eq (x : B256) (p : List B256) :
    p.foldl (fun leaf hash => commutativeHashPair B leaf hash B.init) x = (pathTree x p).root B := by
  induction p using List.reverseRecOn with
  | nil => rfl
  | append_singleton p s ih =>
    rw [List.foldl_append, ih, pathTree_append]
    simp only [List.foldl_cons, List.foldl_nil]
    rw [comm_eq]; rfl

theorem verify_iff (p : List B256) (root x : B256) :
    verifyWithBuilder B p root x = true ↔ (pathTree x p).root B = root := by
  unfold verifyWithBuilder
  rw [fold_eq, decide_eq_true_eq]

theorem leafProofs_ok (t : MTree) : ∀ e ∈ t.leafProofs B, (pathTree e.1 e.2).root B = t.root B := by
  induction t with
  | leaf v => intro e he; simp only [MTree.leafProofs, List.mem_singleton] at he; subst he; rfl
  | node l r ihl ihr =>
    intro e he
    simp only [MTree.leafProofs, List.mem_append, List.mem_map] at he
    rcases he with ⟨e', h, rfl⟩ | ⟨e', h, rfl⟩
    · simp only [pathTree_append, MTree.root]; rw [ihl e' h]
    · simp only [pathTree_append, MTree.root]; rw [ihr e' h, sorted_comm]

theorem nodeProofs_ok (t : MTree) : ∀ e ∈ t.nodeProofs B, (pathTree e.1 e.2).root B = t.root B := by
  induction t with
  | leaf v => intro e he; simp only [MTree.nodeProofs, List.mem_singleton] at he; subst he; rfl
  | node l r ihl ihr =>
    intro e he
    simp only [MTree.nodeProofs, List.mem_cons, List.mem_append, List.mem_map] at he
    rcases he with rfl | ⟨e', h, rfl⟩ | ⟨e', h, rfl⟩
    · rfl
    · simp only [pathTree_append, MTree.root]; rw [ihl e' h]
    · simp only [pathTree_append, MTree.root]; rw [ihr e' h, sorted_comm]

theorem leafProofs_leaves (t : MTree) : (t.leafProofs B).map (·.1) = t.leaves := by
  induction t with
  | leaf v => rfl
  | node l r ihl ihr =>
    simp only [MTree.leafProofs, MTree.leaves, List.map_append, List.map_map]
    rw [← ihl, ← ihr]; rfl

theorem nodeProofs_nodes (t : MTree) : (t.nodeProofs B).map (·.1) = t.nodes B := by
  induction t with
  | leaf v => rfl
  | node l r ihl ihr =>
    simp only [MTree.nodeProofs, MTree.nodes, List.map_cons, List.map_append, List.map_map]
    rw [← ihl, ← ihr]; rfl

/-- The two abnormal outcomes of comparing a tree with another one that has the same root. -/
def Abnormal (t t' : MTree) : Prop :=
  (∃ u ∈ t.pairs B, ∃ v ∈ t'.pairs B, PairCollision B u v) ∨ (∃ v ∈ t.leaves, ∃ u ∈ t'.pairs B, pairHash B u = v)

theorem Abnormal.mono {t t' s s' : MTree} (h1 : ∀ u ∈ t.pairs B, u ∈ s.pairs B) (h2 : ∀ u ∈ t'.pairs B, u ∈ s'.pairs B)
    (h3 : ∀ v ∈ t.leaves, v ∈ s.leaves) (h : Abnormal B t t') : Abnormal B s s' := by
  rcases h with ⟨u, hu, v, hv, h⟩ | ⟨v, hv, u, hu, h⟩
  · exact .inl ⟨u, h1 u hu, v, h2 v hv, h⟩
  · exact .inr ⟨v, h3 v hv, u, h2 u hu, h⟩

theorem pairs_l (l r : MTree) : ∀ u ∈ l.pairs B, u ∈ (MTree.node l r).pairs B := fun u hu => by
  simp only [MTree.pairs, List.mem_cons, List.mem_append]; tauto
theorem pairs_r (l r : MTree) : ∀ u ∈ r.pairs B, u ∈ (MTree.node l r).pairs B := fun u hu => by
  simp only [MTree.pairs, List.mem_cons, List.mem_append]; tauto
theorem leaves_l (l r : MTree) : ∀ v ∈ l.leaves, v ∈ (MTree.node l r).leaves := fun v hv => by
  simp only [MTree.leaves, List.mem_append]; tauto
theorem leaves_r (l r : MTree) : ∀ v ∈ r.leaves, v ∈ (MTree.node l r).leaves := fun v hv => by
  simp only [MTree.leaves, List.mem_append]; tauto

theorem root_mem_nodes (t : MTree) : t.root B ∈ t.nodes B := by
  cases t <;> simp [MTree.nodes, MTree.root]

/-- The children of two nodes with the same hash are the same up to order, or there is a collision. -/
theorem children {l r l' r' : MTree} (h : (MTree.node l r).root B = (MTree.node l' r').root B) :
    PairCollision B (sorted (l.root B) (r.root B)) (sorted (l'.root B) (r'.root B)) ∨
    (l.root B = l'.root B ∧ r.root B = r'.root B) ∨ (l.root B = r'.root B ∧ r.root B = l'.root B) := by
  by_cases hs : sorted (l.root B) (r.root B) = sorted (l'.root B) (r'.root B)
  · exact .inr (sorted_eq hs)
  · exact .inl ⟨hs, h⟩

theorem compare_trees (t t' : MTree) (h : t.root B = t'.root B) : (∀ x ∈ t'.leaves, x ∈ t.nodes B) ∨ Abnormal B t t' := by
  induction t' generalizing t with
  | leaf w =>
    left
    intro x hx
    simp only [MTree.leaves, List.mem_singleton] at hx
    subst hx
    have : t.root B = x := h
    rw [← this]; exact root_mem_nodes B t
  | node l' r' ihl ihr =>
    cases t with
    | leaf v =>
      right; right
      exact ⟨v, by simp [MTree.leaves], _, by simp only [MTree.pairs]; exact List.mem_cons_self, h.symm⟩
    | node l r =>
      rcases children B h with hc | ⟨h1, h2⟩ | ⟨h1, h2⟩
      · right; left
        exact ⟨_, by simp only [MTree.pairs]; exact List.mem_cons_self, _, by simp only [MTree.pairs]; exact List.mem_cons_self, hc⟩
      · rcases ihl l h1 with ha | ha
        · rcases ihr r h2 with hb | hb
          · left
            intro x hx
            simp only [MTree.leaves, List.mem_append] at hx
            simp only [MTree.nodes, List.mem_cons, List.mem_append]
            rcases hx with hx | hx
            · exact .inr (.inl (ha x hx))
            · exact .inr (.inr (hb x hx))
          · exact .inr (hb.mono B (pairs_r B _ _) (pairs_r B _ _) (leaves_r _ _))
        · exact .inr (ha.mono B (pairs_l B _ _) (pairs_l B _ _) (leaves_l _ _))
      · rcases ihl r h2 with ha | ha
        · rcases ihr l h1 with hb | hb
          · left
            intro x hx
            simp only [MTree.leaves, List.mem_append] at hx
            simp only [MTree.nodes, List.mem_cons, List.mem_append]
            rcases hx with hx | hx
            · exact .inr (.inr (ha x hx))
            · exact .inr (.inl (hb x hx))
          · exact .inr (hb.mono B (pairs_l B _ _) (pairs_r B _ _) (leaves_l _ _))
        · exact .inr (ha.mono B (pairs_r B _ _) (pairs_l B _ _) (leaves_r _ _))

/-- For a single proof the position is right too. -/
theorem path_sound (p : List B256) (x : B256) (t : MTree) (h : t.root B = (pathTree x p).root B) :
    (x, p) ∈ t.nodeProofs B ∨ Abnormal B t (pathTree x p) := by
  induction p using List.reverseRecOn generalizing t with
  | nil =>
    left
    have : t.root B = x := h
    cases t with
    | leaf v => simp only [MTree.nodeProofs, List.mem_singleton]; rw [← this]; rfl
    | node l r => simp only [MTree.nodeProofs, List.mem_cons]; left; rw [← this]
  | append_singleton p s ih =>
    rw [pathTree_append] at h ⊢
    cases t with
    | leaf v =>
      right; right
      exact ⟨v, by simp [MTree.leaves], _, by simp only [MTree.pairs]; exact List.mem_cons_self, h.symm⟩
    | node l r =>
      rcases children B h with hc | ⟨h1, h2⟩ | ⟨h1, h2⟩
      · right; left
        exact ⟨_, by simp only [MTree.pairs]; exact List.mem_cons_self, _, by simp only [MTree.pairs]; exact List.mem_cons_self, hc⟩
      · rcases ih l h1 with ha | ha
        · left
          have h2' : r.root B = s := h2
          simp only [MTree.nodeProofs, List.mem_cons, List.mem_append, List.mem_map]
          exact .inr (.inl ⟨(x, p), ha, by rw [h2']⟩)
        · exact .inr (ha.mono B (pairs_l B _ _) (pairs_l B _ _) (leaves_l _ _))
      · rcases ih r h2 with ha | ha
        · left
          have h1' : l.root B = s := h1
          simp only [MTree.nodeProofs, List.mem_cons, List.mem_append, List.mem_map]
          exact .inr (.inr ⟨(x, p), ha, by rw [h1']⟩)
        · exact .inr (ha.mono B (pairs_r B _ _) (pairs_l B _ _) (leaves_r _ _))

/-- In a tree of uniform depth, with a proof of that length: a leaf, or a collision of pairs. -/
theorem path_sound_uniform (d : Nat) (p : List B256) (x : B256) (t : MTree) (ht : t.Uniform d) (hp : p.length = d)
    (h : t.root B = (pathTree x p).root B) :
    (x, p) ∈ t.leafProofs B ∨ ∃ u ∈ t.pairs B, ∃ v ∈ (pathTree x p).pairs B, PairCollision B u v := by
  induction p using List.reverseRecOn generalizing t d with
  | nil =>
    have hd : d = 0 := by simpa using hp.symm
    subst hd
    cases t with
    | leaf v => left; simp only [MTree.leafProofs, List.mem_singleton]; have : v = x := h; rw [this]
    | node l r => exact absurd ht (by simp [MTree.Uniform])
  | append_singleton p s ih =>
    have hd : d = p.length + 1 := by simpa using hp.symm
    subst hd
    rw [pathTree_append] at h ⊢
    cases t with
    | leaf v => exact absurd ht (by simp [MTree.Uniform])
    | node l r =>
      obtain ⟨hl, hr⟩ : l.Uniform p.length ∧ r.Uniform p.length := ht
      rcases children B h with hc | ⟨h1, h2⟩ | ⟨h1, h2⟩
      · right
        exact ⟨_, by simp only [MTree.pairs]; exact List.mem_cons_self, _, by simp only [MTree.pairs]; exact List.mem_cons_self, hc⟩
      · rcases ih _ l hl rfl h1 with ha | ⟨u, hu, v, hv, hc⟩
        · left
          have h2' : r.root B = s := h2
          simp only [MTree.leafProofs, List.mem_append, List.mem_map]
          exact .inl ⟨(x, p), ha, by rw [h2']⟩
        · exact .inr ⟨u, pairs_l B _ _ u hu, v, pairs_l B _ _ v hv, hc⟩
      · rcases ih _ r hr rfl h2 with ha | ⟨u, hu, v, hv, hc⟩
        · left
          have h1' : l.root B = s := h1
          simp only [MTree.leafProofs, List.mem_append, List.mem_map]
          exact .inr ⟨(x, p), ha, by rw [h1']⟩
        · exact .inr ⟨u, pairs_r B _ _ u hu, v, pairs_l B _ _ v hv, hc⟩

/-! ## Byte strings at the leaves -/

theorem tree_leaves (K : Hash) (t : DataTree) : (t.tree K).leaves = t.data.map K := by
  induction t with
  | leaf d => rfl
  | node l r ihl ihr => simp only [DataTree.tree, MTree.leaves, DataTree.data, List.map_append, ihl, ihr]

theorem keccak_pair (K : Hash) (u : B256 × B256) : pairHash (keccakBuilder K) u = K (pairBytes u) := by
  unfold pairHash keccakBuilder pairBytes
  simp

theorem pairBytes_length (u : B256 × B256) : (pairBytes u).length = 64 := by
  unfold pairBytes; rw [List.length_append, be32_length, be32_length]

theorem pairBytes_inj {u v : B256 × B256} (h : pairBytes u = pairBytes v) : u = v := by
  unfold pairBytes at h
  obtain ⟨h1, h2⟩ := be32_cons h
  exact Prod.ext h1 (be32_inj h2)

theorem nodes_cases (t : MTree) : ∀ x ∈ t.nodes B, x ∈ t.leaves ∨ ∃ u ∈ t.pairs B, pairHash B u = x := by
  induction t with
  | leaf v => intro x hx; exact .inl hx
  | node l r ihl ihr =>
    intro x hx
    simp only [MTree.nodes, List.mem_cons, List.mem_append] at hx
    rcases hx with rfl | hx | hx
    · exact .inr ⟨_, by simp only [MTree.pairs]; exact List.mem_cons_self, rfl⟩
    · rcases ihl x hx with h | ⟨u, hu, h⟩
      · exact .inl (leaves_l _ _ x h)
      · exact .inr ⟨u, pairs_l B _ _ u hu, h⟩
    · rcases ihr x hx with h | ⟨u, hu, h⟩
      · exact .inl (leaves_r _ _ x h)
      · exact .inr ⟨u, pairs_r B _ _ u hu, h⟩

/-! ## Multi-proofs -/

/-- The loop on trees with queues. -/
def queueRun : List Bool → List MTree → List B256 → Option (List MTree × List B256)
  | [], q, ps => some (q, ps)
  | true :: fs, a :: b :: q, ps => queueRun fs (q ++ [.node a b]) ps
  | false :: fs, a :: q, p :: ps => queueRun fs (q ++ [.node a (.leaf p)]) ps
  | _ :: _, _, _ => none

theorem rebuild_eq (fs : List Bool) (q : List MTree) (ps : List B256) (t : MTree) :
    rebuild fs q ps = some t ↔ queueRun fs q ps = some ([t], []) := by
  induction fs generalizing q ps with
  | nil =>
    rcases q with _ | ⟨a, _ | ⟨b, q⟩⟩ <;> rcases ps with _ | ⟨p, ps⟩ <;> simp [rebuild, queueRun]
  | cons f fs ih =>
    cases f
    · rcases q with _ | ⟨a, q⟩ <;> rcases ps with _ | ⟨p, ps⟩ <;> simp [rebuild, queueRun, ih]
    · rcases q with _ | ⟨a, _ | ⟨b, q⟩⟩ <;> simp [rebuild, queueRun, ih]

theorem drop_cons {α : Type} {l m : List α} {a : α} {k : Nat} (h : l.drop k = a :: m) :
    l[k]? = some a ∧ l.drop (k + 1) = m ∧ k + 1 ≤ l.length := by
  have hk : k < l.length := by
    by_contra hc
    rw [List.drop_eq_nil_of_le (by omega)] at h
    exact absurd h (by simp)
  rw [List.drop_eq_getElem_cons hk] at h
  injection h with h1 h2
  exact ⟨by rw [List.getElem?_eq_getElem hk, h1], h2, hk⟩

theorem getElem?_of_drop_nil {α : Type} {l : List α} {k : Nat} (h : l.drop k = []) : l[k]? = none := by
  rw [List.getElem?_eq_none_iff]
  exact List.drop_eq_nil_iff.mp h

/-- Leaves of a queue. -/
def qLeaves (q : List MTree) : List B256 := q.flatMap MTree.leaves

theorem loop_success (proof : List B256) (fs : List Bool) : ∀ (hashes : List B256) (hp pp : Nat) (q : List MTree) (ps : List B256),
    hashes.drop hp = q.map (MTree.root B) → hp ≤ hashes.length → proof.drop pp = ps → fs.count true < q.length →
    fs.count false ≤ ps.length →
    ∃ hs q' ps' hp', multiLoop B proof fs hashes hp pp = .ok hs ∧ queueRun fs q ps = some (q', ps') ∧
      hs.length = hashes.length + fs.length ∧ hs.drop hp' = q'.map (MTree.root B) ∧ hp' ≤ hs.length ∧
      q'.length + fs.count true = q.length ∧ ps'.length + fs.count false = ps.length ∧
      (qLeaves q' ++ ps').Perm (qLeaves q ++ ps) := by
  induction fs with
  | nil =>
    intro hashes hp pp q ps hq hle hps _ _
    exact ⟨hashes, q, ps, hp, rfl, rfl, rfl, hq, hle, by simp, by simp, List.Perm.refl _⟩
  | cons f fs ih =>
    intro hashes hp pp q ps hq hle hps ht hf
    cases f
    · have ht' : fs.count true < q.length := by simpa using ht
      have hf' : fs.count false + 1 ≤ ps.length := by simpa using hf
      rcases q with _ | ⟨a, q⟩
      · exact absurd ht' (by simp)
      rcases ps with _ | ⟨p, ps⟩
      · exact absurd hf' (by simp)
      obtain ⟨h1, h2, h3⟩ := drop_cons (by rw [hq, List.map_cons])
      obtain ⟨h4, h5, _⟩ := drop_cons hps
      have hd : (hashes ++ [commutativeHashPair B (a.root B) p B.init]).drop (hp + 1) =
          (q ++ [MTree.node a (.leaf p)]).map (MTree.root B) := by
        rw [List.drop_append_of_le_length h3, h2, List.map_append, comm_eq]; rfl
      obtain ⟨hs, q', ps', hp', e1, e2, e3, e4, e5, e6, e7, e8⟩ := ih _ _ _ _ _ hd (by simp; omega) h5
        (by simpa using ht') (by simpa using hf')
      refine ⟨hs, q', ps', hp', ?_, ?_, ?_, e4, e5, ?_, ?_, ?_⟩
      · unfold multiLoop; rw [h1]; dsimp only; rw [h4]; simpa using e1
      · simpa [queueRun] using e2
      · simp at e3 ⊢; omega
      · simp at e6 ⊢; omega
      · simp at e7 ⊢; omega
      · refine e8.trans ?_
        simp only [qLeaves, List.flatMap_append, List.flatMap_cons, List.flatMap_nil, MTree.leaves, List.append_nil,
          List.append_assoc, List.singleton_append]
        exact (List.perm_append_comm_assoc _ _ _)
    · have ht' : fs.count true + 1 < q.length := by simpa using ht
      have hf' : fs.count false ≤ ps.length := by simpa using hf
      rcases q with _ | ⟨a, _ | ⟨b, q⟩⟩
      · exact absurd ht' (by simp)
      · exact absurd ht' (by simp)
      obtain ⟨h1, h2, h3⟩ := drop_cons (by rw [hq, List.map_cons])
      obtain ⟨h4, h5, h6⟩ := drop_cons (by rw [h2, List.map_cons])
      have hd : (hashes ++ [commutativeHashPair B (a.root B) (b.root B) B.init]).drop (hp + 1 + 1) =
          (q ++ [MTree.node a b]).map (MTree.root B) := by
        rw [List.drop_append_of_le_length h6, h5, List.map_append, comm_eq]; rfl
      obtain ⟨hs, q', ps', hp', e1, e2, e3, e4, e5, e6, e7, e8⟩ := ih _ _ _ _ _ hd (by simp; omega) hps
        (by simp at ht' ⊢; omega) hf'
      refine ⟨hs, q', ps', hp', ?_, ?_, ?_, e4, e5, ?_, ?_, ?_⟩
      · unfold multiLoop; rw [h1]; dsimp only; rw [h4]; simpa using e1
      · simpa [queueRun] using e2
      · simp at e3 ⊢; omega
      · simp at e6 ⊢; omega
      · simp at e7 ⊢; omega
      · refine e8.trans ?_
        simp only [qLeaves, List.flatMap_append, List.flatMap_cons, List.flatMap_nil, MTree.leaves, List.append_nil,
          List.append_assoc]
        have : (List.flatMap MTree.leaves q ++ ((a.leaves ++ b.leaves) ++ ps)).Perm
            ((a.leaves ++ b.leaves) ++ (List.flatMap MTree.leaves q ++ ps)) := List.perm_append_comm_assoc _ _ _
        simpa [List.append_assoc] using this

theorem loop_rootChild (proof : List B256) (fs : List Bool) : ∀ (hashes : List B256) (hp pp n : Nat) (ps : List B256),
    (hashes.drop hp).length = n → 0 < n → proof.drop pp = ps → n ≤ fs.count true →
    fs.count false ≤ ps.length → multiLoop B proof fs hashes hp pp = .error .invalidRootChild := by
  induction fs with
  | nil => intro hashes hp pp n ps hq hn _ ht _; exact absurd ht (by simp; omega)
  | cons f fs ih =>
    intro hashes hp pp n ps hq hn hps ht hf
    cases hh : hashes.drop hp with
    | nil => rw [hh] at hq; simp at hq; omega
    | cons a q =>
      obtain ⟨h1, h2, h3⟩ := drop_cons hh
      rw [hh] at hq
      cases f
      · have ht' : n ≤ fs.count true := by simpa using ht
        have hf' : fs.count false + 1 ≤ ps.length := by simpa using hf
        rcases ps with _ | ⟨p, ps⟩
        · exact absurd hf' (by simp)
        obtain ⟨h4, h5, _⟩ := drop_cons hps
        unfold multiLoop
        rw [h1]; dsimp only; rw [h4]
        simp only [Bool.false_eq_true, if_false]
        refine ih _ _ _ n ps ?_ hn h5 ht' (by simpa using hf')
        rw [List.drop_append_of_le_length h3, h2, List.length_append]
        simpa using hq
      · have ht' : n ≤ fs.count true + 1 := by simpa using ht
        have hf' : fs.count false ≤ ps.length := by simpa using hf
        unfold multiLoop
        rw [h1]; dsimp only
        rw [if_pos rfl]
        cases q with
        | nil => rw [getElem?_of_drop_nil h2]
        | cons b q =>
          obtain ⟨h4, h5, h6⟩ := drop_cons h2
          rw [h4]
          dsimp only
          refine ih _ _ _ (n - 1) ps ?_ (by simp at hq; omega) hps (by omega) hf'
          rw [List.drop_append_of_le_length h6, h5, List.length_append]
          simp at hq ⊢; omega

theorem loop_proofLength (proof : List B256) (fs : List Bool) : ∀ (hashes : List B256) (hp pp n : Nat) (ps : List B256),
    (hashes.drop hp).length = n → proof.drop pp = ps → fs.count true < n →
    ps.length < fs.count false → multiLoop B proof fs hashes hp pp = .error .invalidProofLength := by
  induction fs with
  | nil => intro hashes hp pp n ps _ _ _ hf; exact absurd hf (by simp)
  | cons f fs ih =>
    intro hashes hp pp n ps hq hps ht hf
    cases hh : hashes.drop hp with
    | nil => rw [hh] at hq; simp at hq; omega
    | cons a q =>
      obtain ⟨h1, h2, h3⟩ := drop_cons hh
      rw [hh] at hq
      cases f
      · have ht' : fs.count true < n := by simpa using ht
        have hf' : ps.length < fs.count false + 1 := by simpa using hf
        unfold multiLoop
        rw [h1]; dsimp only
        simp only [Bool.false_eq_true, if_false]
        rcases ps with _ | ⟨p, ps⟩
        · rw [getElem?_of_drop_nil hps]
        obtain ⟨h4, h5, _⟩ := drop_cons hps
        rw [h4]
        dsimp only
        refine ih _ _ _ n ps ?_ h5 ht' (by simpa using hf')
        rw [List.drop_append_of_le_length h3, h2, List.length_append]
        simpa using hq
      · have ht' : fs.count true + 1 < n := by simpa using ht
        have hf' : ps.length < fs.count false := by simpa using hf
        unfold multiLoop
        rw [h1]; dsimp only
        rw [if_pos rfl]
        cases q with
        | nil => simp at hq; omega
        | cons b q =>
          obtain ⟨h4, h5, h6⟩ := drop_cons h2
          rw [h4]
          dsimp only
          refine ih _ _ _ (n - 1) ps ?_ hps (by omega) hf'
          rw [List.drop_append_of_le_length h6, h5, List.length_append]
          simp at hq ⊢; omega

theorem count_add (fs : List Bool) : fs.count true + fs.count false = fs.length := by
  induction fs with
  | nil => rfl
  | cons f fs ih => cases f <;> simp <;> omega

theorem qLeaves_map (l : List B256) : qLeaves (l.map MTree.leaf) = l := by
  unfold qLeaves
  rw [List.flatMap_map]
  simp [MTree.leaves]

theorem map_root_leaf (l : List B256) : (l.map MTree.leaf).map (MTree.root B) = l := by
  rw [List.map_map]
  conv_rhs => rw [← List.map_id l]
  rfl

/-- The main case: balanced flags. -/
theorem multi_ok (proof : List B256) (fs : List Bool) (root : B256) (leaves : List B256)
    (hl : leaves.length = fs.count true + 1) (hp : proof.length = fs.count false) :
    ∃ t, rebuild fs (leaves.map .leaf) proof = some t ∧ t.leaves.Perm (leaves ++ proof) ∧
      verifyMultiProofWithBuilder B proof fs root leaves = .ok (decide (t.root B = root)) := by
  have hc := count_add fs
  obtain ⟨hs, q', ps', hp', e1, e2, e3, e4, e5, e6, e7, e8⟩ :=
    loop_success B proof fs leaves 0 0 (leaves.map .leaf) proof (by rw [map_root_leaf]; rfl) (by omega) rfl
      (by simp; omega) (by omega)
  have hq1 : q'.length = 1 := by simp at e6; omega
  have hp1 : ps' = [] := List.eq_nil_of_length_eq_zero (by omega)
  obtain ⟨t, rfl⟩ := List.length_eq_one_iff.mp hq1
  subst hp1
  refine ⟨t, (rebuild_eq _ _ _ _).mpr e2, ?_, ?_⟩
  · rw [qLeaves_map] at e8
    simpa [qLeaves] using e8
  · unfold verifyMultiProofWithBuilder
    dsimp only
    rw [if_neg (by omega)]
    by_cases h0 : fs.length = 0
    · rw [if_pos h0]
      have hf : fs = [] := List.eq_nil_of_length_eq_zero h0
      subst hf
      simp only [queueRun, Option.some.injEq, Prod.mk.injEq] at e2
      obtain ⟨l, rfl⟩ := List.length_eq_one_iff.mp (by simpa using hl)
      simp only [List.map_cons, List.map_nil, List.cons.injEq, and_true] at e2
      rw [← e2.1]
      simp [MTree.root, eq_comm]
    · rw [if_neg h0, if_neg (by
        cases leaves with
        | nil => simp at hl
        | cons _ _ => simp), e1]
      dsimp only
      have hlast : hs[fs.length + leaves.length - 1]? = some (t.root B) := by
        obtain ⟨g1, g2, g3⟩ := drop_cons (show hs.drop hp' = t.root B :: [] from e4)
        have : hp' + 1 = hs.length := by
          have := List.drop_eq_nil_iff.mp g2; omega
        rw [show fs.length + leaves.length - 1 = hp' from by omega]
        exact g1
      rw [hlast]
      simp [eq_comm]

theorem drop_zero_length (l : List B256) : (l.drop 0).length = l.length := rfl

theorem multi_table (proof : List B256) (fs : List Bool) (root : B256) (leaves : List B256) :
    (leaves.length + proof.length ≠ fs.length + 1 →
      verifyMultiProofWithBuilder B proof fs root leaves = .error .invalidTotalHashes) ∧
    (leaves.length + proof.length = fs.length + 1 → leaves = [] → fs = [] →
      ∃ p, proof = [p] ∧ verifyMultiProofWithBuilder B proof fs root leaves = .ok (decide (root = p))) ∧
    (leaves.length + proof.length = fs.length + 1 → leaves = [] → fs ≠ [] →
      verifyMultiProofWithBuilder B proof fs root leaves = .error .noLeaves) ∧
    (leaves.length + proof.length = fs.length + 1 → leaves ≠ [] → leaves.length ≤ fs.count true →
      verifyMultiProofWithBuilder B proof fs root leaves = .error .invalidRootChild) ∧
    (leaves.length + proof.length = fs.length + 1 → leaves ≠ [] → proof.length < fs.count false →
      verifyMultiProofWithBuilder B proof fs root leaves = .error .invalidProofLength) := by
  have hc := count_add fs
  refine ⟨?_, ?_, ?_, ?_, ?_⟩
  · intro h; unfold verifyMultiProofWithBuilder; dsimp only; rw [if_pos h]
  · rintro h rfl rfl
    obtain ⟨p, rfl⟩ := List.length_eq_one_iff.mp (show proof.length = 1 by simpa using h)
    exact ⟨p, rfl, by unfold verifyMultiProofWithBuilder; simp⟩
  · rintro h rfl hf
    unfold verifyMultiProofWithBuilder
    dsimp only
    rw [if_neg (by omega), if_neg (by simpa using hf)]
    rfl
  · intro h hl ht
    have hlen : 0 < leaves.length := List.length_pos_iff.mpr hl
    unfold verifyMultiProofWithBuilder
    dsimp only
    rw [if_neg (by omega), if_neg (by omega), if_neg (by simpa using hl),
      loop_rootChild B proof fs leaves 0 0 leaves.length proof rfl hlen rfl ht (by omega)]
  · intro h hl hf
    have hlen : 0 < leaves.length := List.length_pos_iff.mpr hl
    unfold verifyMultiProofWithBuilder
    dsimp only
    rw [if_neg (by omega), if_neg (by omega), if_neg (by simpa using hl),
      loop_proofLength B proof fs leaves 0 0 leaves.length proof rfl rfl (by omega) hf]

/-! ## Trees in an array -/

theorem heap_step {n : Nat} {tree : Nat → B256} (h : IsHeap B n tree) {j : Nat} (h0 : j ≠ 0) (hj : j ≤ 2 * n - 2) :
    commutativeHashPair B (tree j) (tree (sibling j)) B.init = tree (parent j) := by
  rw [comm_eq, h (parent j) (by unfold parent; omega)]
  by_cases ho : j % 2 = 1
  · rw [show 2 * parent j + 1 = j from by unfold parent; omega, show sibling j = 2 * parent j + 2 from by
      unfold sibling parent; rw [if_pos ho]; omega]
  · rw [sorted_comm, show 2 * parent j + 2 = j from by unfold parent; omega, show sibling j = 2 * parent j + 1 from by
      unfold sibling parent; rw [if_neg ho]; omega]

theorem heapProof_ok {n : Nat} {tree : Nat → B256} (h : IsHeap B n tree) :
    ∀ (fuel i : Nat), i < fuel → i ≤ 2 * n - 2 →
      (heapProof tree fuel i).foldl (fun leaf hash => commutativeHashPair B leaf hash B.init) (tree i) = tree 0 := by
  intro fuel
  induction fuel with
  | zero => intro i hi; omega
  | succ fuel ih =>
    intro i hi hn
    unfold heapProof
    by_cases h0 : i = 0
    · rw [if_pos h0, h0]; rfl
    · rw [if_neg h0, List.foldl_cons, heap_step B h h0 hn]
      exact ih (parent i) (by unfold parent; omega) (by unfold parent; omega)

/-- The generator's queue: strictly decreasing, within the array, and the parent of the first comes after everything. -/
def QInv (n : Nat) (q : List Nat) : Prop :=
  q.Pairwise (· > ·) ∧ (∀ e ∈ q, e ≤ 2 * n - 2) ∧ ∀ j q', q = j :: q' → j ≠ 0 → ∀ e ∈ q, parent j < e

theorem qinv_true {n j s : Nat} {q : List Nat} (hq : QInv n (j :: s :: q)) (h0 : j ≠ 0) (hs : s = sibling j) :
    QInv n (q ++ [parent j]) := by
  obtain ⟨h1, h2, h3⟩ := hq
  have h3 := h3 j _ rfl h0
  rw [List.pairwise_cons, List.pairwise_cons] at h1
  obtain ⟨ha, hb, hc⟩ := h1
  have hsj : s < j := ha s List.mem_cons_self
  have hje : j % 2 = 0 := by
    by_contra hc'
    unfold sibling at hs
    rw [if_pos (by omega)] at hs
    omega
  have hsj2 : s = j - 1 := by rw [hs]; unfold sibling; rw [if_neg (by omega)]
  refine ⟨?_, ?_, ?_⟩
  · rw [List.pairwise_append]
    refine ⟨hc, by simp, ?_⟩
    intro a ha' b hb'
    rw [List.mem_singleton] at hb'
    subst hb'
    exact h3 a (by simp [ha'])
  · intro e he
    rw [List.mem_append, List.mem_singleton] at he
    rcases he with he | he
    · exact h2 e (by simp [he])
    · have := h2 j (by simp); rw [he]; unfold parent; omega
  · intro j' q' he hj0 e hmem
    rw [List.mem_append, List.mem_singleton] at hmem
    rcases q with _ | ⟨k, q⟩
    · simp only [List.nil_append, List.cons.injEq] at he
      rcases hmem with hm | hm
      · simp at hm
      · rw [hm, ← he.1]; have := he.1; unfold parent at *; omega
    · simp only [List.cons_append, List.cons.injEq] at he
      have hk : j' = k := he.1.symm
      have hks : k < s := hb k List.mem_cons_self
      have hpk : parent j' < parent j := by rw [hk]; rw [hk] at hj0; unfold parent; omega
      rcases hmem with hm | hm
      · exact lt_trans hpk (h3 e (by simp only [List.mem_cons] at hm ⊢; tauto))
      · rw [hm]; exact hpk

theorem qinv_false {n j : Nat} {q : List Nat} (hq : QInv n (j :: q)) (h0 : j ≠ 0) (hs : q.head? ≠ some (sibling j)) :
    QInv n (q ++ [parent j]) := by
  obtain ⟨h1, h2, h3⟩ := hq
  have h3 := h3 j _ rfl h0
  rw [List.pairwise_cons] at h1
  obtain ⟨ha, hc⟩ := h1
  refine ⟨?_, ?_, ?_⟩
  · rw [List.pairwise_append]
    refine ⟨hc, by simp, ?_⟩
    intro a ha' b hb'
    rw [List.mem_singleton] at hb'
    subst hb'
    exact h3 a (by simp [ha'])
  · intro e he
    rw [List.mem_append, List.mem_singleton] at he
    rcases he with he | he
    · exact h2 e (by simp [he])
    · have := h2 j (by simp); rw [he]; unfold parent; omega
  · intro j' q' he hj0 e hmem
    rw [List.mem_append, List.mem_singleton] at hmem
    rcases q with _ | ⟨k, q⟩
    · simp only [List.nil_append, List.cons.injEq] at he
      rcases hmem with hm | hm
      · simp at hm
      · rw [hm, ← he.1]; have := he.1; unfold parent at *; omega
    · simp only [List.cons_append, List.cons.injEq] at he
      have hk : j' = k := he.1.symm
      have hkj : k < j := ha k List.mem_cons_self
      have hks : k ≠ sibling j := fun e => hs (by simp [e])
      have hpk : parent j' < parent j := by
        rw [hk]; rw [hk] at hj0; unfold sibling at hks; unfold parent
        by_cases ho : j % 2 = 1
        · omega
        · rw [if_neg ho] at hks; omega
      rcases hmem with hm | hm
      · exact lt_trans hpk (h3 e (by simp only [List.mem_cons] at hm ⊢; tauto))
      · rw [hm]; exact hpk

theorem head?_cons {α : Type} {q : List α} {s : α} (h : q.head? = some s) : q = s :: q.tail := by
  cases q with
  | nil => simp at h
  | cons a q => simp at h; rw [h]; rfl

theorem heap_loop {n : Nat} {tree : Nat → B256} (h : IsHeap B n tree) (proof : List B256) :
    ∀ (fuel : Nat) (q : List Nat), QInv n q → q ≠ [] → q.sum < fuel →
    ∃ ps fs, heapMultiProof tree fuel q = some (ps, fs) ∧ q.length + ps.length = fs.length + 1 ∧
      ∀ (hashes : List B256) (hp pp : Nat), hashes.drop hp = q.map tree → proof.drop pp = ps →
        ∃ hs, multiLoop B proof fs hashes hp pp = .ok hs ∧ hs.length = hashes.length + fs.length ∧
          hs.getLast? = some (tree 0) := by
  intro fuel
  induction fuel with
  | zero => intro q _ _ hs; omega
  | succ fuel ih =>
    intro q hq hne hs
    rcases q with _ | ⟨j, q⟩
    · exact absurd rfl hne
    by_cases h0 : j = 0
    · subst h0
      have hq0 : q = [] := by
        rcases q with _ | ⟨k, q⟩
        · rfl
        · have := (List.pairwise_cons.mp hq.1).1 k List.mem_cons_self
          omega
      subst hq0
      refine ⟨[], [], by simp [heapMultiProof], rfl, ?_⟩
      intro hashes hp pp hh _
      refine ⟨hashes, rfl, rfl, ?_⟩
      obtain ⟨g1, g2, g3⟩ := drop_cons (show hashes.drop hp = tree 0 :: [] from hh)
      have : hp + 1 = hashes.length := by
        have := List.drop_eq_nil_iff.mp g2; omega
      rw [List.getLast?_eq_getElem?, ← this]
      exact g1
    · have hjn : j ≤ 2 * n - 2 := hq.2.1 j List.mem_cons_self
      have hpar : parent j < j := by unfold parent; omega
      by_cases hsib : q.head? = some (sibling j)
      · have hq2 := head?_cons hsib
        generalize q.tail = q2 at hq2
        subst hq2
        have hsum : (q2 ++ [parent j]).sum < fuel := by
          simp only [List.sum_cons, List.sum_append, List.sum_nil] at hs ⊢; omega
        obtain ⟨ps, fs, e1, e2, e3⟩ := ih _ (qinv_true hq h0 rfl) (by simp) hsum
        refine ⟨ps, true :: fs, ?_, ?_, ?_⟩
        · simp only [heapMultiProof, if_neg h0, List.head?_cons, if_true, List.tail_cons, e1, Option.map_some]
        · simp at e2 ⊢; omega
        · intro hashes hp pp hh hps
          obtain ⟨h1, h2, h3⟩ := drop_cons (by rw [hh, List.map_cons])
          obtain ⟨h4, h5, h6⟩ := drop_cons (by rw [h2, List.map_cons])
          have hd : (hashes ++ [tree (parent j)]).drop (hp + 1 + 1) = (q2 ++ [parent j]).map tree := by
            rw [List.drop_append_of_le_length h6, h5, List.map_append]; rfl
          obtain ⟨hs', f1, f2, f3⟩ := e3 _ _ pp hd hps
          refine ⟨hs', ?_, by simp at f2 ⊢; omega, f3⟩
          unfold multiLoop; rw [h1]; dsimp only; rw [h4]; dsimp only
          rw [if_pos rfl, heap_step B h h0 hjn]
          exact f1
      · have hsum : (q ++ [parent j]).sum < fuel := by
          simp only [List.sum_cons, List.sum_append, List.sum_nil] at hs ⊢; omega
        obtain ⟨ps, fs, e1, e2, e3⟩ := ih _ (qinv_false hq h0 hsib) (by simp) hsum
        refine ⟨tree (sibling j) :: ps, false :: fs, ?_, ?_, ?_⟩
        · simp only [heapMultiProof, if_neg h0, if_neg hsib, e1, Option.map_some]
        · simp at e2 ⊢; omega
        · intro hashes hp pp hh hps
          obtain ⟨h1, h2, h3⟩ := drop_cons (by rw [hh, List.map_cons])
          obtain ⟨h4, h5, _⟩ := drop_cons hps
          have hd : (hashes ++ [tree (parent j)]).drop (hp + 1) = (q ++ [parent j]).map tree := by
            rw [List.drop_append_of_le_length h3, h2, List.map_append]; rfl
          obtain ⟨hs', f1, f2, f3⟩ := e3 _ _ (pp + 1) hd h5
          refine ⟨hs', ?_, by simp at f2 ⊢; omega, f3⟩
          unfold multiLoop; rw [h1]; dsimp only; rw [h4]; dsimp only
          rw [if_neg (by simp), heap_step B h h0 hjn]
          exact f1

theorem heap_multi {n : Nat} {tree : Nat → B256} (h : IsHeap B n tree) (q : List Nat)
    (hd : q.Pairwise (· > ·)) (hlo : ∀ e ∈ q, n - 1 ≤ e) (hhi : ∀ e ∈ q, e ≤ 2 * n - 2) :
    ∃ ps fs, heapMultiProof tree (q.sum + 1) q = some (ps, fs) ∧
      verifyMultiProofWithBuilder B ps fs (tree 0) (q.map tree) = .ok true := by
  by_cases hne : q = []
  · subst hne
    refine ⟨[tree 0], [], rfl, ?_⟩
    unfold verifyMultiProofWithBuilder; simp
  · have hinv : QInv n q := by
      refine ⟨hd, hhi, ?_⟩
      rintro j q' rfl hj0 e he
      have h1 := hhi j List.mem_cons_self
      have h2 := hlo e he
      unfold parent; omega
    obtain ⟨ps, fs, e1, e2, _⟩ := heap_loop B h [] (q.sum + 1) q hinv hne (by omega)
    obtain ⟨ps', fs', e1', e2', e3⟩ := heap_loop B h ps (q.sum + 1) q hinv hne (by omega)
    obtain ⟨rfl, rfl⟩ : ps = ps' ∧ fs = fs' := by
      rw [e1] at e1'; simpa using e1'
    refine ⟨ps, fs, e1, ?_⟩
    obtain ⟨hs, f1, f2, f3⟩ := e3 (q.map tree) 0 0 rfl rfl
    unfold verifyMultiProofWithBuilder
    dsimp only
    rw [if_neg (by simp; omega)]
    by_cases h0 : fs.length = 0
    · have hf : fs = [] := List.eq_nil_of_length_eq_zero h0
      subst hf
      have hs' : hs = q.map tree := by
        unfold multiLoop at f1; injection f1 with f1; exact f1.symm
      rw [if_pos h0]
      have hlen := List.length_pos_iff.mpr hne
      obtain ⟨j, rfl⟩ := List.length_eq_one_iff.mp (show q.length = 1 by simp at e2; omega)
      rw [hs'] at f3
      simp at f3
      simp [f3]
    · rw [if_neg h0, if_neg (by simpa using hne), f1]
      dsimp only
      rw [List.getLast?_eq_getElem?, f2] at f3
      rw [show fs.length + (q.map tree).length - 1 = (q.map tree).length + fs.length - 1 from by omega, f3]
      simp

end Verif.Proofs.Merkle
