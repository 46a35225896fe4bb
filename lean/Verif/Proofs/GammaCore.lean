import Verif.Proofs.Stirling
import Mathlib.Analysis.Convex.Deriv
import Mathlib.Analysis.Real.Pi.Bounds
import Mathlib.Analysis.SpecialFunctions.Gaussian.GaussianIntegral

/-! # The polynomial core of `gamma` on `[2.5, 3.5]`

With `v = 4z - 11` (or `4z - 13`) the difference between `log p(z) + log z + … + log(z+7)` and Stirling's series at `z+8` has a rational second
derivative; the kernel bounds it on `[-1,1]`, and the exact values of `Γ` at 5/2, 3 and 7/2 fix the difference at the end points. -/

namespace Verif
namespace ZPoly

/-- `p(A/B)` times a power of `B` -/
def moeb (A B : List ℤ) : List ℤ → List ℤ
  | [] => []
  | c :: cs => add (smul c (pow B cs.length)) (mul A (moeb A B cs))

theorem ev_moeb (A B : List ℤ) (y : ℝ) (hB : ev B y ≠ 0) : ∀ p : List ℤ,
    ev B y * ev (moeb A B p) y = ev B y ^ p.length * ev p (ev A y / ev B y)
  | [] => by simp [moeb, ev]
  | c :: cs => by
    have ih := ev_moeb A B y hB cs
    simp only [moeb, ev_add, ev_smul, ev_mul, ev_pow, ev, List.length_cons, pow_succ]
    rw [mul_add, show ev B y * (ev A y * ev (moeb A B cs) y) = ev A y * (ev B y * ev (moeb A B cs) y) by ring, ih]
    field_simp

/-- nonnegativity on `(-1,1)` -/
theorem nonneg_on (p : List ℤ) (h : nonneg (moeb [-1, 1] [1, 1] p) = true) {v : ℝ} (h1 : -1 < v) (h2 : v < 1) : 0 ≤ ev p v := by
  have hy : 0 ≤ (1 + v) / (1 - v) := div_nonneg (by linarith) (by linarith)
  have hd : 1 - v ≠ 0 := by linarith
  have eB : ev [1, 1] ((1 + v) / (1 - v)) = 2 / (1 - v) := by
    simp only [ev]; push_cast; field_simp; ring
  have eA : ev [-1, 1] ((1 + v) / (1 - v)) = 2 * v / (1 - v) := by
    simp only [ev]; push_cast; field_simp; ring
  have hB : 0 < 2 / (1 - v) := div_pos (by norm_num) (by linarith)
  have e := ev_moeb [-1, 1] [1, 1] ((1 + v) / (1 - v)) (by rw [eB]; exact hB.ne') p
  have hn := ev_nonneg _ _ h hy
  rw [eA, eB, show 2 * v / (1 - v) / (2 / (1 - v)) = v by field_simp] at e
  have h3 : 0 ≤ (2 / (1 - v)) ^ p.length * ev p v := by rw [← e]; positivity
  exact nonneg_of_mul_nonneg_right h3 (by positivity)

/-- `∏ (v + k)²` -/
def linP : List ℤ → List ℤ
  | [] => [1]
  | k :: ks => mul (pow [k, 1] 2) (linP ks)

/-- `∏ (v + k)² · ∑ 1/(v+k)²` -/
def linS : List ℤ → List ℤ
  | [] => []
  | k :: ks => add (linP ks) (mul (pow [k, 1] 2) (linS ks))

end ZPoly
open ZPoly Filter Topology

/-- `∑ log (v+k)` -/
noncomputable def logs : List ℤ → ℝ → ℝ
  | [], _ => 0
  | k :: ks, v => Real.log (v + k) + logs ks v
noncomputable def logs1 : List ℤ → ℝ → ℝ
  | [], _ => 0
  | k :: ks, v => 1 / (v + k) + logs1 ks v
noncomputable def logs2 : List ℤ → ℝ → ℝ
  | [], _ => 0
  | k :: ks, v => 1 / (v + k)^2 + logs2 ks v

theorem logs_deriv : ∀ (ks : List ℤ) {v : ℝ}, (∀ k ∈ ks, 0 < v + k) → HasDerivAt (logs ks) (logs1 ks v) v
  | [], v, _ => by
    have : logs [] = fun _ => (0:ℝ) := by funext; rfl
    rw [this]; exact hasDerivAt_const v _
  | k :: ks, v, h => by
    have h1 : HasDerivAt (fun v : ℝ => Real.log (v + k)) (1 / (v + k)) v := ((hasDerivAt_id v).add_const (k:ℝ)).log (by
      have := h k (by simp); simp; linarith)
    have h2 := h1.add (logs_deriv ks (fun j hj => h j (by simp [hj])))
    have e : logs (k :: ks) = (fun v : ℝ => Real.log (v + k)) + logs ks := by funext; rfl
    rw [e]
    exact h2

theorem logs1_deriv : ∀ (ks : List ℤ) {v : ℝ}, (∀ k ∈ ks, 0 < v + k) → HasDerivAt (logs1 ks) (-logs2 ks v) v
  | [], v, _ => by
    have : logs1 [] = fun _ => (0:ℝ) := by funext; rfl
    rw [this]; simp only [logs2, neg_zero]; exact hasDerivAt_const v _
  | k :: ks, v, h => by
    have h1 : HasDerivAt (fun v : ℝ => 1 / (v + k)) (-(1 / (v + k)^2)) v := by
      have hk := h k (by simp)
      have h := (hasDerivAt_const v (1:ℝ)).div ((hasDerivAt_id v).add_const (k:ℝ)) (by simp; linarith)
      refine h.congr_deriv ?_
      simp [neg_div]
    have h2 := h1.add (logs1_deriv ks (fun j hj => h j (by simp [hj])))
    have e : logs1 (k :: ks) = (fun v : ℝ => 1 / (v + k)) + logs1 ks := by funext; rfl
    rw [e]
    refine h2.congr_deriv ?_
    simp only [logs2]; ring

theorem linP_pos : ∀ (ks : List ℤ) {v : ℝ}, (∀ k ∈ ks, 0 < v + k) → 0 < ev (linP ks) v
  | [], v, _ => by simp [linP, ev]
  | k :: ks, v, h => by
    have h1 := h k (by simp)
    have e : ev [k, 1] v = v + k := by simp only [ev]; push_cast; ring
    rw [linP, ev_mul, ev_pow, e]
    exact mul_pos (by positivity) (linP_pos ks (fun j hj => h j (by simp [hj])))

theorem logs2_eq : ∀ (ks : List ℤ) {v : ℝ}, (∀ k ∈ ks, 0 < v + k) → logs2 ks v = ev (linS ks) v / ev (linP ks) v
  | [], v, _ => by simp [linS, logs2, ev]
  | k :: ks, v, h => by
    have h1 := h k (by simp)
    have h2 := linP_pos ks (v := v) (fun j hj => h j (by simp [hj]))
    have e : ev [k, 1] v = v + k := by simp only [ev]; push_cast; ring
    rw [linP, linS, logs2, logs2_eq ks (fun j hj => h j (by simp [hj])), ev_add, ev_mul, ev_mul, ev_pow, e]
    field_simp

/-! ## derivatives of Stirling's series -/

noncomputable def stL1 (c : List ℝ) (w : ℝ) : ℝ := Real.log w + (w - 1/2) / w - 1 + rs 2 (drs 1 c) w
noncomputable def stL2 (c : List ℝ) (w : ℝ) : ℝ := 1 / w + 1 / (2 * w^2) + rs 3 (drs 2 (drs 1 c)) w

theorem stL_deriv (c : List ℝ) {w : ℝ} (h : 0 < w) : HasDerivAt (stL c) (stL1 c w) w := by
  have h1 := Real.hasDerivAt_log h.ne'
  have h2 : HasDerivAt (fun w : ℝ => w - 1/2) 1 w := (hasDerivAt_id w).sub_const _
  have := (((h2.mul h1).sub (hasDerivAt_id w)).add_const (Real.log √(2 * Real.pi))).add (rs_deriv c 1 h)
  refine this.congr_deriv ?_
  unfold stL1
  simp only [div_eq_mul_inv, one_mul]

theorem stL1_deriv (c : List ℝ) {w : ℝ} (h : 0 < w) : HasDerivAt (stL1 c) (stL2 c w) w := by
  have h1 := Real.hasDerivAt_log h.ne'
  have h2 : HasDerivAt (fun w : ℝ => (w - 1/2) / w) (1 / (2 * w^2)) w := by
    have := ((hasDerivAt_id w).sub_const (1/2)).div (hasDerivAt_id w) h.ne'
    refine this.congr_deriv ?_
    simp only [id]
    field_simp
    ring
  have := ((h1.add h2).sub_const 1).add (rs_deriv (drs 1 c) 2 h)
  refine this.congr_deriv ?_
  unfold stL2
  simp only [one_div]

/-! ## the difference -/

/-- the eight shifts -/
def ks8 (o : ℤ) : List ℤ := [o, o + 4, o + 8, o + 12, o + 16, o + 20, o + 24, o + 28]

noncomputable def cH (P : List ℤ) (o : ℤ) (v : ℝ) : ℝ := Real.log (ev P v) + logs (ks8 o) v - stL stC6 ((v + (o + 32)) / 4)
noncomputable def cH1 (P : List ℤ) (o : ℤ) (v : ℝ) : ℝ := ev (der P) v / ev P v + logs1 (ks8 o) v - stL1 stC6 ((v + (o + 32)) / 4) / 4
noncomputable def cH2 (P : List ℤ) (o : ℤ) (v : ℝ) : ℝ :=
  (ev (der (der P)) v * ev P v - ev (der P) v * ev (der P) v) / ev P v ^ 2 - logs2 (ks8 o) v - stL2 stC6 ((v + (o + 32)) / 4) / 16

theorem cH_deriv {P : List ℤ} {o : ℤ} {v : ℝ} (hP : 0 < ev P v) (hk : ∀ k ∈ ks8 o, 0 < v + k) (hu : 0 < v + ((o:ℝ) + 32)) :
    HasDerivAt (cH P o) (cH1 P o v) v := by
  have h1 := (hasDerivAt_ev P v).log hP.ne'
  have h2 := logs_deriv _ hk
  have h3 : HasDerivAt (fun v : ℝ => (v + ((o:ℝ) + 32)) / 4) (1/4) v := ((hasDerivAt_id v).add_const _).div_const 4
  have h4 := (stL_deriv stC6 (w := (v + ((o:ℝ) + 32)) / 4) (by positivity)).comp v h3
  have := (h1.add h2).sub h4
  refine this.congr_deriv ?_
  unfold cH1
  ring

theorem cH1_deriv {P : List ℤ} {o : ℤ} {v : ℝ} (hP : 0 < ev P v) (hk : ∀ k ∈ ks8 o, 0 < v + k) (hu : 0 < v + ((o:ℝ) + 32)) :
    HasDerivAt (cH1 P o) (cH2 P o v) v := by
  have h1 := (hasDerivAt_ev (der P) v).div (hasDerivAt_ev P v) hP.ne'
  have h2 := logs1_deriv _ hk
  have h3 : HasDerivAt (fun v : ℝ => (v + ((o:ℝ) + 32)) / 4) (1/4) v := ((hasDerivAt_id v).add_const _).div_const 4
  have h4 := ((stL1_deriv stC6 (w := (v + ((o:ℝ) + 32)) / 4) (by positivity)).comp v h3).div_const 4
  have := (h1.add h2).sub h4
  refine this.congr_deriv ?_
  unfold cH2
  ring

/-- `60060·u¹³·stL2(u/4)/16` as a polynomial in `u` -/
def stN (o : ℤ) : List ℤ :=
  let u : List ℤ := [o + 32, 1]
  add (smul 15015 (pow u 12)) (add (smul 30030 (pow u 11)) (add (smul 40040 (pow u 10)) (add (smul (-128128) (pow u 8)) (add (smul 1464320 (pow u 6))
    (add (smul (-32800768) (pow u 4)) (add (smul 1192755200 (pow u 2)) (smul (-63761809408) [1])))))))

def cNum (P : List ℤ) (o : ℤ) : List ℤ :=
  let u : List ℤ := [o + 32, 1]
  let Z := linP (ks8 o)
  let PP := mul P P
  let U := pow u 13
  sub (sub (smul 60060 (mul (mul (sub (mul (der (der P)) P) (mul (der P) (der P))) Z) U)) (smul 60060 (mul (mul PP (linS (ks8 o))) U)))
    (mul (mul PP Z) (stN o))
def cDen (P : List ℤ) (o : ℤ) : List ℤ :=
  smul 60060 (mul (mul (mul P P) (linP (ks8 o))) (pow [o + 32, 1] 13))

theorem stN_eq {o : ℤ} {v : ℝ} (hu : 0 < v + ((o:ℝ) + 32)) : stL2 stC6 ((v + (o + 32)) / 4) / 16 = ev (stN o) v / (60060 * (v + (o + 32))^13) := by
  have e : ev [o + 32, 1] v = v + (o + 32) := by simp only [ev]; push_cast; ring
  simp only [stN, ev_add, ev_smul, ev_pow, e]
  simp only [ev]
  generalize v + ((o:ℝ) + 32) = u at *
  simp only [stL2, stC6, drs, rs]
  push_cast
  field_simp
  ring

theorem cH2_eq {P : List ℤ} {o : ℤ} {v : ℝ} (hP : 0 < ev P v) (hk : ∀ k ∈ ks8 o, 0 < v + k) (hu : 0 < v + ((o:ℝ) + 32)) :
    0 < ev (cDen P o) v ∧ cH2 P o v = ev (cNum P o) v / ev (cDen P o) v := by
  have hZ := linP_pos _ hk
  have e : ev [o + 32, 1] v = v + (o + 32) := by simp only [ev]; push_cast; ring
  unfold cH2
  rw [stN_eq hu, logs2_eq _ hk]
  simp only [cNum, cDen, ev_sub, ev_smul, ev_mul, ev_pow, e]
  push_cast
  generalize ev (linP (ks8 o)) v = Z at *
  generalize ev (linS (ks8 o)) v = S at *
  generalize ev (stN o) v = T at *
  generalize v + ((o:ℝ) + 32) = u at *
  generalize ev P v = p at *
  generalize ev (der P) v = p1 at *
  generalize ev (der (der P)) v = p2 at *
  have hu' : 0 < u^13 := by positivity
  generalize u^13 = U at *
  refine ⟨by positivity, ?_⟩
  field_simp

/-- second derivative below `5·10⁻¹³` -/
def cCheck (P : List ℤ) (o : ℤ) : Bool :=
  nonneg (moeb [-1, 1] [1, 1] (sub (smul 5 (cDen P o)) (smul (10^13) (cNum P o)))) &&
  nonneg (moeb [-1, 1] [1, 1] (add (smul 5 (cDen P o)) (smul (10^13) (cNum P o))))

theorem cH2_bound {P : List ℤ} {o : ℤ} (hc : cCheck P o = true) {v : ℝ} (h1 : -1 < v) (h2 : v < 1) (hP : 0 < ev P v)
    (hk : ∀ k ∈ ks8 o, 0 < v + k) (hu : 0 < v + ((o:ℝ) + 32)) : |cH2 P o v| ≤ 5 / 10^13 := by
  obtain ⟨hd, e⟩ := cH2_eq hP hk hu
  unfold cCheck at hc
  rw [Bool.and_eq_true] at hc
  have a := nonneg_on _ hc.1 h1 h2
  have b := nonneg_on _ hc.2 h1 h2
  rw [ev_sub, ev_smul, ev_smul] at a
  rw [ev_add, ev_smul, ev_smul] at b
  push_cast at a b
  rw [e, abs_div, abs_of_pos hd, div_le_div_iff₀ hd (by norm_num), ← abs_of_pos (show (0:ℝ) < 10^13 by norm_num), ← abs_mul, abs_le]
  norm_num at a b ⊢
  constructor <;> linarith

/-- a function with small second derivative stays near its end values -/
theorem sandwich2 {f f1 f2 : ℝ → ℝ} {b e : ℝ} (d1 : ∀ v, -1 ≤ v → v ≤ 1 → HasDerivAt f (f1 v) v) (d2 : ∀ v, -1 ≤ v → v ≤ 1 → HasDerivAt f1 (f2 v) v)
    (hb : ∀ v, -1 < v → v < 1 → f2 v ≤ b) (ha : -e ≤ f (-1)) (hc : -e ≤ f 1) {v : ℝ} (h1 : -1 ≤ v) (h2 : v ≤ 1) : -(e + b / 2 * (1 - v^2)) ≤ f v := by
  have key : ConvexOn ℝ (Set.Icc (-1:ℝ) 1) (fun v => -f v - b / 2 * (1 - v^2)) := by
    refine convexOn_of_hasDerivWithinAt2_nonneg (convex_Icc _ _) (f' := fun v => -f1 v + b * v) (f'' := fun v => -f2 v + b) ?_ ?_ ?_ ?_
    · intro x hx
      refine ContinuousAt.continuousWithinAt ?_
      have := (d1 x hx.1 hx.2).continuousAt
      fun_prop
    · intro x hx
      rw [interior_Icc] at hx
      have h3 : HasDerivAt (fun v : ℝ => b / 2 * (1 - v^2)) (b / 2 * (-(2 * x))) x := by
        have := ((hasDerivAt_pow 2 x).const_sub 1).const_mul (b / 2)
        refine this.congr_deriv ?_
        simp
      have := (d1 x hx.1.le hx.2.le).neg.sub h3
      refine HasDerivAt.hasDerivWithinAt (this.congr_deriv ?_)
      ring
    · intro x hx
      rw [interior_Icc] at hx
      have h3 : HasDerivAt (fun v : ℝ => b * v) b x := by simpa using (hasDerivAt_id x).const_mul b
      exact ((d2 x hx.1.le hx.2.le).neg.add h3).hasDerivWithinAt
    · intro x hx
      rw [interior_Icc] at hx
      have := hb x hx.1 hx.2
      linarith
  have := key.le_max_of_mem_Icc (x := -1) (y := 1) (z := v) (by simp) (by simp) ⟨h1, h2⟩
  have h4 : max (-f (-1) - b / 2 * (1 - (-1)^2)) (-f 1 - b / 2 * (1 - 1^2)) ≤ e := by
    refine max_le ?_ ?_ <;> norm_num <;> linarith
  have := this.trans h4
  linarith

end Verif
