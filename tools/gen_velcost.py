# Generates lean/Verif/Lemmas/VelCost.lean: comparison of the coefficients coded in computeVelocityCost with the exact ones.
import os, re
from fractions import Fraction as F
from math import comb
ROOT = os.path.join(os.path.dirname(os.path.abspath(__file__)), "..", "lean", "Verif")
SETS = [(8, [4], "c0_dc0_ddc0_j0_j1_ddc1_dc1_c1", F(2, 10**11)),
        (10, [4, 5, 6], "c0_dc0_ddc0_j0_x3_j1_ddc1_dc1_c1", F(1, 10**8)),
        (12, [4, 5, 6, 7, 8], "c0_dc0_ddc0_j0_x5_j1_ddc1_dc1_c1", F(6, 10**7))]

def exact(n):
    m = [[F(0)] * (n + 1) for _ in range(n + 1)]
    for i in range(n):
        for j in range(n):
            c = F(n * n * comb(n - 1, i) * comb(n - 1, j), (2 * n - 1) * comb(2 * n - 2, i + j))
            for a, s in ((i + 1, 1), (i, -1)):
                for b, t in ((j + 1, 1), (j, -1)):
                    m[a][b] += s * t * c
    return {(i, j): (m[i][j] if i == j else 2 * m[i][j]) for i in range(n + 1) for j in range(i, n + 1)}

def coded(free, f):
    s = open(os.path.join(ROOT, "Waypoints", f + ".lean")).read()
    h = s[s.index("def velocityCostH"):s.index("def velocityCostG")]
    co = {}
    for a, r in zip(free, re.findall(r"!\[ ?([^!\]]*)\]", h)):
        for b, e in zip(free, r.split(", ")):
            m = re.match(r"\s*(-?[0-9.]+) / \((2 \* T|T)\)", e)
            k = tuple(sorted((a, b)))
            co[k] = co.get(k, 0) + F(m.group(1)) / (2 if "2" in m.group(2) else 1)
    s = s[s.index("def velocityCostG"):]
    for a, r in zip(free, s.split("(fun k =>")[1:]):
        for m in re.finditer(r"([-+]?)\s*([0-9.]+) \* pi (\d+) k", r.split("/ (2")[0]):
            k = tuple(sorted((a, int(m.group(3)))))
            co[k] = co.get(k, 0) + F(m.group(1) + m.group(2))
    return co

def num(q):
    return "(%d / %d : ℝ)" % (q.numerator, q.denominator) if q.denominator != 1 else "(%d : ℝ)" % q.numerator

def poly(c):
    t = ["%s * (p %d * p %d)" % (num(v), i, j) for (i, j), v in sorted(c.items()) if v != 0]
    return " +\n      ".join(t) if t else "0"

out = '''import Verif.Lemmas.VelIntegral
import Verif.Lemmas.EndCost

/-!
# The coefficients of `computeVelocityCost`

Generated by `tools/gen_velcost.py`: exact expansions of the integral of a squared velocity, and bounds on the distance of
the decimals in the source from these.
-/

namespace Verif
open Finset

set_option maxHeartbeats 4000000

/-- The integral of the squared velocity of a curve of degree `n` with control points `p` on a line, traversed in time
1. -/
noncomputable def velQ (n : ℕ) (p : ℕ → ℝ) : ℝ :=
  n ^ 2 * ∑ i ∈ range n, ∑ j ∈ range n, bernProd (n - 1) i j * ((p (i + 1) - p i) * (p (j + 1) - p j))

/-- `p` with the free points at the origin. -/
def zeroFree (K : ℕ) (p : ℕ → ℝ) : ℕ → ℝ := fun i => if 4 ≤ i ∧ i < 4 + K then 0 else p i

'''
for n, free, f, tol in SETS:
    q, co, K = exact(n), coded(free, f), len(free)
    out += "theorem velQ%d (p : ℕ → ℝ) : velQ %d p =\n      %s := by\n" % (n, n, poly(q))
    names = []
    for i in range(n):
        for j in range(n):
            v = F(comb(n - 1, i) * comb(n - 1, j), (2 * n - 1) * comb(2 * n - 2, i + j))
            out += "  have b%d_%d : bernProd %d %d %d = %s := by norm_num [bernProd, Nat.choose, Nat.factorial]\n" % (i, j, n - 1, i, j, num(v))
            names.append("b%d_%d" % (i, j))
    out += "  simp only [velQ, sum_range_succ, sum_range_zero, Nat.reduceSub, Nat.reduceAdd, Nat.cast_ofNat, zero_add, %s]\n  ring\n\n" % ", ".join(names)
    out += "/-- The coded cost along one axis, times the duration. -/\nnoncomputable def velPoly%d (p : ℕ → ℝ) : ℝ :=\n      %s\n\n" % (n, poly(co))
    out += "theorem velCode%d (P : ℕ → V3) (p : ℕ → ℝ) (k : Fin 3) (T : ℝ) (hp : ∀ i, p i = if 4 ≤ i ∧ i < 4 + %d then p i else P i k) :\n" % (n, K)
    out += "    ∑ a, ∑ b, %s.velocityCostH T a b * (p (4 + a.val) * p (4 + b.val))\n" % f
    out += "      + 2 * ∑ a, %s.velocityCostG P T a k * p (4 + a.val) = T⁻¹ * velPoly%d p := by\n" % (f, n)
    hs = [i for i in range(n + 1) if i not in free]
    for i in hs:
        out += "  have h%d : P %d k = p %d := by rw [hp %d]; simp\n" % (i, i, i, i)
    out += "  simp only [velPoly@, %s.velocityCostH, %s.velocityCostG, Fin.sum_univ_%s]\n" % (f, f, {1: "one", 3: "three", 5: "five"}[K]) if K > 1 else \
           "  simp only [velPoly@, %s.velocityCostH, %s.velocityCostG, Fin.sum_univ_one]\n" % (f, f)
    out += "  simp [%s]\n  ring\n\n" % ", ".join("h%d" % i for i in hs)
    E = {k: co.get(k, 0) - (2 * n - 1) * q[k] for k in q if k[0] in free or k[1] in free}
    for k in co: assert k in E
    d = (2 * n - 1) * tol
    out += "theorem velBound%d (p : ℕ → ℝ) :\n    |velPoly%d p - %d * (velQ %d p - velQ %d (zeroFree %d p))|\n      ≤ %s * ∑ i ∈ range %d, p i ^ 2 := by\n" % (n, n, 2 * n - 1, n, n, K, num(d), n + 1)
    out += "  have e : velPoly%d p - %d * (velQ %d p - velQ %d (zeroFree %d p)) =\n      %s := by\n    unfold velPoly%d\n    rw [velQ%d, velQ%d]\n" % (n, 2 * n - 1, n, n, K, poly(E), n, n, n)
    for i in range(n + 1):
        out += "    have z%d : zeroFree %d p %d = %s := by simp [zeroFree]\n" % (i, K, i, "0" if i in free else "p %d" % i)
    out += "    simp only [%s]\n    ring\n" % ", ".join("z%d" % i for i in range(n + 1))
    out += "  rw [e, abs_le]\n  simp only [sum_range_succ, sum_range_zero, zero_add]\n  constructor\n"
    for sg in (1, -1):
        # d sum p^2 + sg * E >= 0
        rs = [d] * (n + 1); sos = []
        for (i, j), v in sorted(E.items()):
            v = sg * v
            if v == 0: continue
            if i == j: rs[i] += v
            else:
                rs[i] -= abs(v) / 2; rs[j] -= abs(v) / 2
                sos.append("%s * (p %d %s p %d) ^ 2" % (num(abs(v) / 2), i, "+" if v > 0 else "-", j))
        for i in range(n + 1):
            assert rs[i] > 0, (n, i, float(rs[i]))
            sos.append("%s * p %d ^ 2" % (num(rs[i]), i))
        out += "  · have : 0 ≤ %s := by positivity\n    linarith only [this]\n" % (" +\n      ".join(sos))
    out += "\n"
for n, free, f, tol in SETS:
    co, K = coded(free, f), len(free)
    lam = F(1, 100)
    A = [[(co[tuple(sorted((a, b)))] / (1 if a == b else 2)) - (lam if a == b else 0) for b in free] for a in free]
    terms = []
    for i in range(K):
        d = A[i][i]
        assert d > 0
        terms.append("%s * (%s) ^ 2" % (num(d), " + ".join(("x %d" % j) if j == i else "%s * x %d" % (num(A[i][j] / d), j) for j in range(i, K))))
        A = [[A[r][c] - A[r][i] * A[i][c] / d if r > i and c > i else A[r][c] for c in range(K)] for r in range(K)]
    out += "theorem velPos%d (T : ℝ) (x : Fin %d → ℝ) :\n    ∑ a, ∑ b, %s.velocityCostH T a b * (x a * x b)\n      = T⁻¹ * (%s * ∑ a, x a ^ 2 +\n      %s) := by\n" % (n, K, f, num(lam), " +\n      ".join(terms))
    out += "  simp only [%s.velocityCostH, Fin.sum_univ_%s]\n  simp\n  ring\n\n" % (f, {1: "one", 3: "three", 5: "five"}[K])
out = re.sub(r"velPoly@, (.*?Fin)", lambda m: "velPoly%d, %s" % ({"j1": 8, "x3": 10, "x5": 12}[re.search(r"j0_(j1|x3|x5)", m.group(1)).group(1)], m.group(1)), out)
out += "end Verif\n"
open(os.path.join(ROOT, "Lemmas", "VelCost.lean"), "w").write(out)
