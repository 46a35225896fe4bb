from fractions import Fraction as F
N=24
P=[[1]]
for j in range(N):
    a=P[-1]; n=[0]*(len(a)+1)
    for k,c in enumerate(a):
        n[k+1]+=2*c
        if k>0: n[k-1]-=k*c
    P.append(n)
def M(k):
    if k==0: return F(89,100)
    if k==1: return F(1,2)
    return F(k-1,2)*M(k-2)
def rat(f): return f"{f.numerator}/{f.denominator}" if f.denominator!=1 else str(f.numerator)
o=[]
w=o.append
w("""import Verif.Proofs.FadRay
import Verif.Proofs.ErfcxAcc

/-! Asymptotic expansion of `w` in the upper half-plane, from integration by parts in the ray integral.  The combinations `T j` of moments have the
coefficients of the Hermite polynomials. -/

namespace Verif
namespace Fad
open Complex MeasureTheory Set

theorem mr (a b c : ℕ) (h1 : b = a + 1) (h2 : c = b + 1) (q : ℂ) : q * mo b q = 2 * mo c q - (b:ℂ) * mo a q := by
  subst h1; subst h2
  have := mo_rec (a+1) q
  simp only [Nat.add_sub_cancel, zero_pow (Nat.succ_ne_zero a), neg_zero] at this
  linear_combination this
theorem mr0 (q : ℂ) : q * mo 0 q = 2 * mo 1 q - 1 := by
  have := mo_rec 0 q
  simp at this
  linear_combination this

/-- moments of the Gaussian -/
noncomputable def mu (n : ℕ) : ℝ := ∫ s in Ioi (0:ℝ), s^n * Real.exp (-1 * s^2)
theorem mo_mu (n : ℕ) : mo n 0 = (mu n : ℂ) := by
  unfold mo ker mu
  rw [← integral_complex_ofReal]
  congr 1
  funext s
  push_cast
  simp
theorem mu_rec (n : ℕ) : mu (n+2) = (n+1) / 2 * mu n := by
  have := mr n (n+1) (n+2) rfl rfl 0
  rw [mo_mu, mo_mu, mo_mu] at this
  have h : (0:ℝ) = 2 * mu (n+2) - ((n+1 : ℕ) : ℝ) * mu n := by
    have e : (0:ℂ) = 2 * (mu (n+2) : ℂ) - ((n+1 : ℕ) : ℂ) * (mu n : ℂ) := by linear_combination this
    exact_mod_cast e
  push_cast at h
  linarith
theorem mu0 : mu 0 ≤ 89/100 := by
  have h := mo0_zero
  rw [mo_mu] at h
  have h' : mu 0 = Real.sqrt Real.pi / 2 := by exact_mod_cast h
  have hk := kap_bounds.1
  have : kap * Real.sqrt Real.pi = 2 := by unfold kap; field_simp
  have hs : 0 < Real.sqrt Real.pi := Real.sqrt_pos.2 Real.pi_pos
  rw [h']
  nlinarith
theorem mu1 : mu 1 ≤ 1/2 := by
  have h := mr0 0
  rw [mo_mu, mo_mu] at h
  have : (0:ℝ) = 2 * mu 1 - 1 := by
    have e : (0:ℂ) = 2 * (mu 1 : ℂ) - 1 := by linear_combination h
    exact_mod_cast e
  linarith""")
for k in range(2,N+1):
    w(f"theorem mu{k} : mu {k} ≤ {rat(M(k))} := by have := mu_rec {k-2}; have h := mu{k-2}; norm_num at this ⊢; linarith")
w("""
theorem cb (c : ℤ) {m : ℂ} {A B : ℝ} (h : ‖m‖ ≤ A) (hB : |(c:ℝ)| * A ≤ B) : ‖(c:ℂ) * m‖ ≤ B := by
  rw [norm_mul, Complex.norm_intCast]
  exact (mul_le_mul_of_nonneg_left h (abs_nonneg _)).trans hB
""")
for k in range(1,N):
    w(f"theorem mr{k} (q : ℂ) : q * mo {k} q = 2 * mo {k+1} q - {k} * mo {k-1} q := by exact_mod_cast mr {k-1} {k} {k+1} rfl rfl q")
def tb(j): return " + ".join(f"(({c} : ℤ) : ℂ) * mo {k} q" for k,c in enumerate(P[j]) if c!=0)
for j in range(N+1):
    w(f"noncomputable def T{j} (q : ℂ) : ℂ := {tb(j)}")
for j in range(N):
    t=[]
    for k,c in enumerate(P[j]):
        if c==0: continue
        if k==0: t.append(f"({c}) * mr0 q")
        else: t.append(f"({c}) * mr{k} q")
    w(f"""theorem st{j} (q : ℂ) : q * T{j} q = T{j+1} q - {P[j][0] if P[j][0]>=0 else f'({P[j][0]})'} := by
  simp only [T{j}, T{j+1}]
  push_cast
  linear_combination {' + '.join(t)}""")
def bound(j):
    ks=[(k,c) for k,c in enumerate(P[j]) if c!=0]
    B=[abs(c)*M(k) for k,c in ks]
    tot=sum(B)
    import math
    tr=math.ceil(tot)
    pr=f"cb ({ks[0][1]}) ((mo_le {ks[0][0]} hq).trans mu{ks[0][0]}) (B := {rat(B[0])}) (by norm_num)"
    for (k,c),b in list(zip(ks,B))[1:]:
        pr=f"norm_add_le_of_le ({pr}) (cb ({c}) ((mo_le {k} hq).trans mu{k}) (B := {rat(b)}) (by norm_num))"
    w(f"theorem tb{j} {{q : ℂ}} (hq : q.re ≤ 0) : ‖T{j} q‖ ≤ {tr} := by\n  refine (show ‖T{j} q‖ ≤ _ from {pr}).trans ?_\n  norm_num")
    return tr
bs={j:bound(j) for j in (3,9,24)}
w(f"theorem T0_eq (q : ℂ) : T0 q = mo 0 q := by simp [T0]")
# even steps with p = 1/q
for k in range(N//2):
    c=P[2*k][0]
    w(f"""theorem ep{2*k} {{p q : ℂ}} (h : p * q = 1) : T{2*k} q = p^2 * T{2*k+2} q - ({c}) * p := by
  linear_combination p * st{2*k} q + p^2 * st{2*k+1} q - T{2*k} q * h - p * T{2*k+1} q * h""")
for (K,nm) in ((1,2),(4,8),(12,24)):
    s=" + ".join(f"({-P[2*k][0]}) * p * (p^2)^{k}" for k in range(K))
    lc=" + ".join(f"(p^2)^{k} * ep{2*k} h" for k in range(K))
    w(f"""theorem ex{nm} {{p q : ℂ}} (h : p * q = 1) : mo 0 q = {s} + (p^2)^{K} * T{nm} q := by
  rw [← T0_eq]
  linear_combination {lc}""")
w("""
end Fad
end Verif""")
open('Verif/Proofs/FadAsy.lean','w').write("\n".join(o)+"\n")
print(bs)
