from math import comb
o='''import Verif.BezLemmas

/-!
Explicit expansions of scalar Bernstein sums (degrees 0 to 12), generated by
`tools/gen_expand.py`.
-/

namespace Verif

'''
for n in range(0,13):
    terms=[]
    for i in range(n+1):
        f=[]
        c=comb(n,i)
        if c!=1: f.append(str(c))
        if i==1: f.append('t')
        elif i>1: f.append(f't ^ {i}')
        j=n-i
        if j==1: f.append('(1 - t)')
        elif j>1: f.append(f'(1 - t) ^ {j}')
        f.append(f'p {i}')
        terms.append(' * '.join(f))
    e=' +\n      '.join(terms)
    o+=f'''theorem bezS{n} (p : ℕ → ℝ) (t : ℝ) : bez {n} p t =
      {e} := by
  simp only [bez, Finset.sum_range_succ, Finset.sum_range_zero, smul_eq_mul, Nat.choose]
  norm_num

'''
o+='end Verif\n'
open('/verif/lean/Verif/BezExpand.lean','w').write(o)
