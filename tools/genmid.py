# generates the 20-term expansion in lean/Verif/Proofs/FadMid.lean
from math import prod, factorial, isqrt
h=[1]
for k in range(20): h.append(-2*(2*k+1)*h[-1])
def df(k): return prod(range(1,2*k,2))
print("theorem ex40 {p q : ℂ} (h : p * q = 1) : mo 0 q = " + " + ".join(f"({-h[k]}) * p * (p^2)^{k}" for k in range(20)) + " + (p^2)^20 * It (He 40) q := by")
print("  rw [← It_zero]")
for k in range(20):
    print(f"  have e{k} : It (He {2*k}) q = p^2 * It (He {2*k+2}) q - ({h[k]}) * p := by have := It_two {k} h; rw [h0v{k}] at this; push_cast at this; exact this")
print("  linear_combination " + " + ".join(f"(p^2)^{k} * e{k}" for k in range(20)))
