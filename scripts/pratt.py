import subprocess
def fac(n):
    o=subprocess.run(['factor',str(n)],capture_output=True,text=True).stdout
    return [int(x) for x in o.split(':')[1].split()]
done={}
out=[]
KNOWN={
28948022309329048855892746252171976963363056481941647379679742748393362948097:([2]*32+[3,3,1709,24859,1690502597179744445941507,10427374428728808478656897599072717],5),
28948022309329048855892746252171976963363056481941560715954676764349967630337:([2]*32+[3,463,539204044132271846773,8999194758858563409123804352480028797519453],5),
52435875175126190479447740508185965837690552500527637822603658699938581184513:([2]*32+[3,11,19,10177,125527,859267,906349,906349,2508409,2529403,52437899,254760293,254760293],7),
21888242871839275222246405745257275088548364400416034343698204186575808495617:([2]*28+[3,3,13,29,983,11003,237073,405928799,1670836401704629,13818364434197438864469338081],7),
18446744069414584321:([2]*32+[3,5,17,257,65537],7),
2013265921:([2]*27+[3,5],31),
}
def prove(p):
    if p in done: return
    if p<1000000:
        return
    if p in KNOWN: fs,g=KNOWN[p]
    else:
        fs=fac(p-1)
        for g in range(2,1000):
            if pow(g,p-1,p)==1 and all(pow(g,(p-1)//q,p)!=1 for q in set(fs)): break
    assert pow(g,p-1,p)==1 and all(pow(g,(p-1)//q,p)!=1 for q in set(fs))
    m=1
    for q in fs: m*=q
    assert m==p-1
    qs=sorted(set(fs))
    for q in qs: prove(q)
    done[p]=g
    prm=lambda q: f"prime_{q}" if q in done else "(by norm_num)"
    pairs=[(q,fs.count(q)) for q in qs]
    s=f"theorem pratt_{p} : Nat.Prime {p} ∧ orderOf ((({g} : ℕ)) : ZMod {p}) = {p} - 1 :=\n"
    s+=f"  pratt {g} [{', '.join(f'({q}, {e})' for q,e in pairs)}] (by decide +kernel)\n    "
    s+="".join(f"(forall_cons {prm(q)} " for q,e in pairs)+"forall_nil"+")"*len(pairs)+"\n"
    s+=f"theorem prime_{p} : Nat.Prime {p} := pratt_{p}.1\n"
    out.append(s)
for p in KNOWN: prove(p)
head='''import Mathlib.NumberTheory.LucasPrimality
import Mathlib.Tactic.NormNum.Prime
/-!
# Primality certificates (generated)

For each prime `p`, the factorisation of `p - 1` into primes and an element whose order is `p - 1`.
-/

namespace Verif.Primes

/-- `g ^ e % p` by square and multiply over the bits of `e` below `n`.  The match makes the kernel compute each
intermediate value once. -/
def powMod (p g e : ℕ) : ℕ → ℕ → ℕ
  | 0, acc => acc
  | n + 1, acc =>
    match (acc * acc * (if e.testBit n then g else 1)) % p with
    | 0 => 0
    | k + 1 => powMod p g e n (k + 1)

theorem powMod_zero (p g e n : ℕ) : powMod p g e n 0 = 0 := by
  cases n with
  | zero => rfl
  | succ n => rw [powMod]; simp

theorem powMod_eq (p g e : ℕ) : ∀ n acc, acc = g ^ (e >>> n) % p → powMod p g e n acc = g ^ e % p := by
  intro n
  induction n with
  | zero => intro acc h; rw [powMod, h, Nat.shiftRight_zero]
  | succ n ih =>
    intro acc h
    rw [powMod]
    have key : (acc * acc * (if e.testBit n then g else 1)) % p = g ^ (e >>> n) % p := by
      have hs : e >>> n = 2 * (e >>> (n + 1)) + (e.testBit n).toNat := by
        rw [Nat.shiftRight_succ, Nat.testBit, Nat.one_and_eq_mod_two]
        rcases Nat.mod_two_eq_zero_or_one (e >>> n) with h | h <;> simp [h] <;> omega
      rw [hs, Nat.pow_add, Nat.two_mul, Nat.pow_add, h]
      have hb : (if e.testBit n then g else 1) = g ^ (e.testBit n).toNat := by cases e.testBit n <;> simp
      rw [hb, Nat.mul_mod, ← Nat.mul_mod (g ^ (e >>> (n + 1))), ← Nat.mul_mod]
    rw [key]
    split
    · rename_i h0
      have := ih 0 (by rw [h0])
      rw [powMod_zero] at this
      exact this
    · rename_i k hk
      exact ih (k + 1) hk.symm

theorem forall_nil {p : ℕ × ℕ → Prop} : ∀ x ∈ ([] : List (ℕ × ℕ)), p x := fun _ h => absurd h (List.not_mem_nil)
theorem forall_cons {p : ℕ × ℕ → Prop} {a : ℕ × ℕ} {l : List (ℕ × ℕ)} (h : p a) (hl : ∀ x ∈ l, p x) : ∀ x ∈ a :: l, p x :=
  List.forall_mem_cons.mpr ⟨h, hl⟩

/-- What is checked by computation. -/
def check (p g : ℕ) (l : List (ℕ × ℕ)) : Bool :=
  decide (1 < p) && decide (p < 2 ^ 256) && decide ((l.map fun x => x.1 ^ x.2).prod = p - 1) &&
    l.all (fun x => decide (powMod p g ((p - 1) / x.1) 256 1 ≠ 1)) && decide (powMod p g (p - 1) 256 1 = 1)

theorem pratt {p : ℕ} (g : ℕ) (l : List (ℕ × ℕ)) (hc : check p g l = true) (hl : ∀ x ∈ l, x.1.Prime) :
    p.Prime ∧ orderOf ((g : ℕ) : ZMod p) = p - 1 := by
  unfold check at hc
  simp only [Bool.and_eq_true, decide_eq_true_eq, List.all_eq_true] at hc
  obtain ⟨⟨⟨⟨hp, hlt⟩, hprod⟩, hne⟩, h1⟩ := hc
  have pm : ∀ e, e < 2 ^ 256 → powMod p g e 256 1 = g ^ e % p := by
    intro e he
    apply powMod_eq
    rw [Nat.shiftRight_eq_div_pow, Nat.div_eq_of_lt he, Nat.pow_zero, Nat.mod_eq_of_lt hp]
  have cast : ∀ e, ((g : ZMod p) ^ e = 1 ↔ g ^ e % p = 1) := by
    intro e
    rw [← Nat.cast_pow, show (1 : ZMod p) = ((1 : ℕ) : ZMod p) by simp, ZMod.natCast_eq_natCast_iff', Nat.mod_eq_of_lt hp]
  have hd : ∀ q : ℕ, q.Prime → q ∣ p - 1 → (g : ZMod p) ^ ((p - 1) / q) ≠ 1 := by
    intro q hq hdvd
    rw [← hprod] at hdvd
    obtain ⟨y, hy, hdy⟩ := (Prime.dvd_prod_iff hq.prime).mp hdvd
    obtain ⟨x, hx, rfl⟩ := List.mem_map.mp hy
    have : q = x.1 := (Nat.prime_dvd_prime_iff_eq hq (hl x hx)).mp (hq.dvd_of_dvd_pow hdy)
    rw [Ne, cast, this, ← pm _ (Nat.lt_of_le_of_lt (Nat.div_le_self _ _) (by omega))]
    exact hne x hx
  have h1' : (g : ZMod p) ^ (p - 1) = 1 := (cast _).mpr (by rw [← pm _ (by omega)]; exact h1)
  exact ⟨lucas_primality p g h1' hd, orderOf_eq_of_pow_and_pow_div_prime (by omega) h1' hd⟩

'''
open('Verif/Proofs/Primes.lean','w').write(head+"\n".join(out)+"\nend Verif.Primes\n")
