"""Transcribes the Poseidon2 parameter sets of /repo into lean/Verif/Model/PoseidonInstances.lean."""
import re
SRC = '/repo/lib/crypto/src/poseidon2/instance/'
SETS = [('bn256.rs', 'BN256Params', 'bn256'), ('pallas.rs', 'PallasParams', 'pallas'), ('vesta.rs', 'VestaParams', 'vesta'),
        ('bls12.rs', 'BLS2Params', 'bls2'), ('bls12.rs', 'BLS3Params', 'bls3'), ('bls12.rs', 'BLS4Params', 'bls4'),
        ('goldilocks.rs', 'Goldilocks12Params', 'goldilocks12'), ('babybear.rs', 'BabyBear24Params', 'babyBear24')]
out = ['''import Verif.Model.Poseidon
/-!
# The parameter sets of `lib/crypto/src/poseidon2/instance/*.rs`

Generated by `scripts/poseidon.py` from the sources; `fp_from_hex!("..")` is the number read in base 16, taken in the field.
-/

namespace Verif.Poseidon.Instances

/-- A parameter set as written in the source: numbers instead of field elements.
`PoseidonParams`, `lib/crypto/src/poseidon2/params.rs` 10-35. -/
structure Raw where
  T : Nat
  D : Nat
  capacity : Nat
  roundsF : Nat
  roundsP : Nat
  diag : List Nat
  rc : List (List Nat)

/-- The constants as field elements.
`fp_from_hex!`, `lib/crypto/src/field/fp.rs` 989-997 (exact by C68). -/
def Raw.params (R : Raw) (F : Type) [CommRing F] : Params F :=
  { T := R.T, D := R.D, capacity := R.capacity, roundsF := R.roundsF, roundsP := R.roundsP
    diag := R.diag.map (fun n : Nat => (n : F)), rc := R.rc.map fun row => row.map fun n : Nat => (n : F) }
''']
for f, name, ident in SETS:
    src = open(SRC + f).read()
    lines = src.split('\n')
    start = next(i for i, l in enumerate(lines) if re.match(r'impl PoseidonParams<\w+> for %s ' % name, l))
    end = next(i for i in range(start, len(lines)) if lines[i] == '}')
    body = '\n'.join(lines[start:end + 1])
    def num(k):
        return int(re.search(r'const %s: \w+ = (\d+);' % k, body).group(1))
    d = body[body.index('MAT_INTERNAL_DIAG_M_1'):body.index('const ROUND_CONSTANTS')]
    diag = re.findall(r'fp_from_hex!\(\s*"([0-9a-fA-F]+)"\s*\)', d)
    assert d.count('fp_from') == len(diag)
    r = body[body.index('const ROUND_CONSTANTS'):]
    r = r[r.index('= &[') + 4:]
    rows = re.findall(r'&\[(.*?)\]', r, re.S)
    rc = [re.findall(r'fp_from_hex!\(\s*"([0-9a-fA-F]+)"\s*,?\s*\)', x) for x in rows]
    assert r.count('fp_from') == sum(map(len, rc)), (name, r.count('fp_from'), sum(map(len, rc)))
    h = lambda x: '0x%x' % int(x, 16)
    out.append('/-- `%s`, `%s` %d-%d. -/\ndef %s : Raw where\n  T := %d\n  D := %d\n  capacity := %d\n  roundsF := %d\n  roundsP := %d\n  diag := [%s]\n  rc := [\n%s]\n' % (
        name, f, start + 1, end + 1, ident, num('T'), num('D'), num('CAPACITY'), num('ROUNDS_F'), num('ROUNDS_P'),
        ',\n    '.join(map(h, diag)), ',\n'.join('    [' + ',\n     '.join(map(h, row)) + ']' for row in rc)))
out.append('end Verif.Poseidon.Instances\n')
open('/verif/lean/Verif/Model/PoseidonInstances.lean', 'w').write('\n'.join(out))
