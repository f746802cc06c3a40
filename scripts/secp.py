"""Writes lean/Verif/Proofs/Secp256k1.lean: primality certificates for the two moduli of secp256k1."""
import subprocess
def fac(n):
    o=subprocess.run(['factor',str(n)],capture_output=True,text=True).stdout
    return [int(x) for x in o.split(':')[1].split()]
KNOWN={
115792089237316195423570985008687907853269984665640564039457584007908834671663:
  [2,3,7,13441,205115282021455665897114700593932402728804164701536103180137503955397371],
205115282021455665897114700593932402728804164701536103180137503955397371:
  [2,3,5,29,29,31,7723,132896956044521568488119,255515944373312847190720520512484175977],
115792089237316195423570985008687907852837564279074904382605163141518161494337:
  [2]*6+[3,149,631,107361793816595537,174723607534414371449,341948486974166000522343609283189],
}
done={}; out=[]
def prove(p):
    if p in done or p<1000000: return
    fs=KNOWN[p] if p in KNOWN else fac(p-1)
    g=next(g for g in range(2,1000) if pow(g,p-1,p)==1 and all(pow(g,(p-1)//q,p)!=1 for q in set(fs)))
    m=1
    for q in fs: m*=q
    assert m==p-1
    qs=sorted(set(fs))
    for q in qs: prove(q)
    done[p]=g
    prm=lambda q: f"prime_{q}" if q in done else "(by norm_num)"
    s=f"theorem prime_{p} : Nat.Prime {p} :=\n"
    s+=f"  (pratt {g} [{', '.join(f'({q}, {fs.count(q)})' for q in qs)}] (by decide +kernel)\n    "
    s+="".join(f"(forall_cons {prm(q)} " for q in qs)+"forall_nil"+")"*len(qs)+").1\n"
    out.append(s)
for p in list(KNOWN): prove(p)
open('/verif/lean/Verif/Proofs/Secp256k1.lean','w').write('''import Verif.Proofs.Primes
/-!
# Primality of the two moduli of secp256k1 (generated by `scripts/secp.py`)
-/

namespace Verif.Primes.Secp256k1

'''+"\n".join(out)+'''
end Verif.Primes.Secp256k1
''')
