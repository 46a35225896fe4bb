import Verif.Proofs.BesselRight5

/-! `i0` and `i1` for `x ≥ 15` in exact arithmetic. -/

namespace Verif
namespace Bes
open ZPoly Real

/-- `s' = d/(2x) + σ`, `d' = -2d + s/(2x) + δ` for `x ≥ 15` with `|σ| ≤ S/x²`, `|δ| ≤ D/x`: both stay small -/
theorem energyI {s d σ δ : ℝ → ℝ} {S D η : ℝ} (hS : 0 ≤ S) (hD : 0 ≤ D)
    (h0 : ∀ x, 15 ≤ x → HasDerivAt s (d x / (2 * x) + σ x) x)
    (h1 : ∀ x, 15 ≤ x → HasDerivAt d (-2 * d x + s x / (2 * x) + δ x) x)
    (b0 : ∀ x, 15 ≤ x → |σ x| ≤ S / x ^ 2) (b1 : ∀ x, 15 ≤ x → |δ x| ≤ D / x)
    (i0 : |s 15| ≤ η) (i1 : |d 15| ≤ η) {x : ℝ} (hx : 15 ≤ x) :
    s x ^ 2 + d x ^ 2 ≤ 2.3 * η ^ 2 + 0.071 * (S ^ 2 + D ^ 2 / 2) := by
  set k : ℝ := 3 / 2 with hk
  set b : ℝ := S ^ 2 + D ^ 2 / 2 with hb
  set E : ℝ → ℝ := fun x => s x ^ 2 + d x ^ 2 with hE
  have hdE : ∀ x, 15 ≤ x → HasDerivAt E (2 * s x * (d x / (2 * x) + σ x) + 2 * d x * (-2 * d x + s x / (2 * x) + δ x)) x := by
    intro x hx
    refine (((h0 x hx).pow 2).add ((h1 x hx).pow 2)).congr_deriv ?_
    push_cast; ring
  have hE' : ∀ x, 15 ≤ x → 2 * s x * (d x / (2 * x) + σ x) + 2 * d x * (-2 * d x + s x / (2 * x) + δ x) ≤ (k * E x + b) / x ^ 2 := by
    intro x hx
    have hx0 : 0 < x := by linarith
    have a1 : 2 * (s x / x) * d x ≤ 2 * d x ^ 2 + (s x / x) ^ 2 / 2 := by nlinarith [sq_nonneg (2 * d x - s x / x)]
    have a2 : 2 * d x * δ x ≤ 2 * d x ^ 2 + (D / x) ^ 2 / 2 := by
      have : δ x ^ 2 ≤ (D / x) ^ 2 := by rw [← sq_abs]; exact pow_le_pow_left₀ (abs_nonneg _) (b1 x hx) 2
      nlinarith [sq_nonneg (2 * d x - δ x)]
    have a3 : 2 * s x * σ x ≤ (s x ^ 2 + S ^ 2) / x ^ 2 := by
      have h2 : 2 * s x * σ x ≤ 2 * |s x| * (S / x ^ 2) := by
        calc 2 * s x * σ x ≤ |2 * s x * σ x| := le_abs_self _
          _ = 2 * |s x| * |σ x| := by rw [abs_mul, abs_mul, abs_two]
          _ ≤ _ := by gcongr; exact b0 x hx
      have h3 : 2 * |s x| * S ≤ s x ^ 2 + S ^ 2 := by rw [← sq_abs (s x)]; nlinarith [sq_nonneg (|s x| - S)]
      calc 2 * s x * σ x ≤ 2 * |s x| * (S / x ^ 2) := h2
        _ = 2 * |s x| * S / x ^ 2 := by ring
        _ ≤ _ := by gcongr
    have e1 : 2 * s x * (d x / (2 * x) + σ x) + 2 * d x * (-2 * d x + s x / (2 * x) + δ x) =
        2 * (s x / x) * d x + 2 * s x * σ x - 4 * d x ^ 2 + 2 * d x * δ x := by field_simp; ring
    have e2 : (k * E x + b) / x ^ 2 = (s x / x) ^ 2 / 2 + (s x ^ 2 + S ^ 2) / x ^ 2 + (D / x) ^ 2 / 2 + k * d x ^ 2 / x ^ 2 := by
      simp only [hE, hb, hk]; field_simp; ring
    rw [e1, e2]
    have : 0 ≤ k * d x ^ 2 / x ^ 2 := by positivity
    linarith
  have hanti : AntitoneOn (fun x => (E x + b / k) * Real.exp (k / x)) (Set.Ici 15) := by
    have hd : ∀ x, 15 ≤ x → HasDerivAt (fun x => (E x + b / k) * Real.exp (k / x))
        ((2 * s x * (d x / (2 * x) + σ x) + 2 * d x * (-2 * d x + s x / (2 * x) + δ x)) * Real.exp (k / x) +
          (E x + b / k) * (Real.exp (k / x) * (-k / x ^ 2))) x := by
      intro x hx
      have hx0 : x ≠ 0 := by linarith
      have d1 : HasDerivAt (fun x : ℝ => k / x) (-k / x ^ 2) x := by
        have := (hasDerivAt_inv hx0).const_mul k
        refine (this.congr_deriv ?_).congr_of_eventuallyEq ?_
        · field_simp
        · filter_upwards with z; rw [div_eq_mul_inv]
      exact ((hdE x hx).add_const _).mul d1.exp
    refine antitoneOn_of_deriv_nonpos (convex_Ici 15) (fun x hx => (hd x hx).continuousAt.continuousWithinAt) ?_ ?_
    · intro x hx; rw [interior_Ici] at hx; exact (hd x (le_of_lt hx)).differentiableAt.differentiableWithinAt
    · intro x hx
      rw [interior_Ici] at hx
      have hx8 : 15 ≤ x := le_of_lt hx
      rw [(hd x hx8).deriv]
      have h2 := hE' x hx8
      have e : (E x + b / k) * (Real.exp (k / x) * (-k / x ^ 2)) = -((k * E x + b) / x ^ 2 * Real.exp (k / x)) := by
        have : k ≠ 0 := by norm_num [hk]
        have : x ≠ 0 := by linarith
        field_simp
      rw [e]
      have := mul_le_mul_of_nonneg_right h2 (Real.exp_pos (k / x)).le
      linarith
  have hle := hanti (Set.mem_Ici.mpr le_rfl) (Set.mem_Ici.mpr hx) hx
  simp only at hle
  have hkx : 1 ≤ Real.exp (k / x) := Real.one_le_exp (by rw [hk]; positivity)
  have hk8 : Real.exp (k / 15) ≤ 1.106 := by
    have := Real.exp_bound' (x := k / 15) (by norm_num [hk]) (by norm_num [hk]) (n := 4) (by norm_num)
    refine this.trans ?_
    norm_num [Finset.sum_range_succ, Nat.factorial, hk]
  have hbk : b / k = b * (2 / 3) := by rw [hk]; ring
  have hb0 : 0 ≤ b := by rw [hb]; positivity
  have hE15 : E 15 ≤ 2 * η ^ 2 := by
    simp only [hE]
    have a0 : s 15 ^ 2 ≤ η ^ 2 := by rw [← sq_abs]; exact pow_le_pow_left₀ (abs_nonneg _) i0 2
    have a1 : d 15 ^ 2 ≤ η ^ 2 := by rw [← sq_abs]; exact pow_le_pow_left₀ (abs_nonneg _) i1 2
    linarith
  have hE0 : ∀ x, 0 ≤ E x := fun x => by simp only [hE]; positivity
  have hEx := hE0 x
  have hE150 := hE0 15
  have hbk0 : 0 ≤ b / k := by rw [hbk]; positivity
  have h6 : E x + b / k ≤ (E 15 + b / k) * 1.106 := by
    calc E x + b / k ≤ (E x + b / k) * Real.exp (k / x) := le_mul_of_one_le_right (by positivity) hkx
      _ ≤ (E 15 + b / k) * Real.exp (k / 15) := hle
      _ ≤ _ := by gcongr
  rw [hbk] at h6
  have : E x = s x ^ 2 + d x ^ 2 := rfl
  nlinarith [sq_nonneg η]

/-! ## tables in `t = 15/x` -/

def iP0 : List ℤ := smul 10 (comp I0PPz [1, -1])
def iQ0 : List ℤ := comp I0QQz [1, -1]
/-- scaled so that both quotients agree at `t = 0` -/
def iP1 : List ℤ := smul (iP0.headD 0 * (comp I1QQz [1, -1]).headD 0) (comp I1PPz [1, -1])
def iQ1 : List ℤ := smul (iQ0.headD 0 * (comp I1PPz [1, -1]).headD 0) (comp I1QQz [1, -1])

/-- `1/60` of the numerator of `P0/Q0 ± P1/Q1`, over `Q0² Q1²` -/
def iU : List ℤ := mul4 iP0 iQ0 iQ1 iQ1
def iV : List ℤ := mul4 iP1 iQ1 iQ0 iQ0
def iG : List ℤ := mul (dd iP0 iQ0) (mul iQ1 iQ1)
def iH : List ℤ := mul (dd iP1 iQ1) (mul iQ0 iQ0)
def iDen : List ℤ := mul4 iQ0 iQ0 iQ1 iQ1
def Ndel : List ℤ := sub (add (smul (-2) (sh (sh (sub iG iH)))) (smul 60 (sub iU iV))) (sh (add iU iV))
def Nsig : List ℤ := sub (smul (-2) (sh (sh (add iG iH)))) (sh (sub iU iV))

/-- check of `|N(y)| ≤ (1/e) D(y)` on `[0,1]` -/
def chk01 (t : ℕ) (e : ℤ) (m : ℕ) (N D : List ℤ) : Bool :=
  fL D fun W => fL (smul e N) fun Q =>
    decide ((add W Q).length ≤ m + 1) && decide ((sub W Q).length ≤ m + 1) &&
    (fL (shrL t (sc 32 m (add W Q))) fun P => posOn P 1 16 0) && (fL (shrL t (sc 32 m (sub W Q))) fun P => posOn P 1 16 0)

theorem pos01 (t m : ℕ) {y : ℝ} (h0 : 0 ≤ y) (h1 : y ≤ 1) (p : List ℤ) (hp : p.length ≤ m + 1) (hpos : posOn (shrL t (sc 32 m p)) 1 16 0 = true) :
    0 ≤ ev p y := by
  have q := posOn_sound' _ 1 (32 * y) 16 0 (by norm_num) hpos (by push_cast; linarith) (by push_cast; linarith)
  have q2 := shrL_le t (32 * y) (by linarith) (sc 32 m p)
  rw [ev_sc 32 (by norm_num) (32 * y) p m hp] at q2
  have e1 : 32 * y / ((32:ℕ):ℝ) = y := by push_cast; ring
  rw [e1] at q2
  have q3 : 0 ≤ ((32:ℕ):ℝ) ^ m * ev p y := le_trans (mul_nonneg q (by positivity)) q2
  exact nonneg_of_mul_nonneg_right q3 (by positivity)

theorem chk01_sound (t : ℕ) (e : ℤ) (he : 0 < e) (m : ℕ) (N D : List ℤ) (h : chk01 t e m N D = true) {y : ℝ} (h0 : 0 ≤ y) (h1 : y ≤ 1) :
    |ev N y| ≤ 1 / e * ev D y := by
  have he' : (0:ℝ) < e := by exact_mod_cast he
  simp only [chk01, fL_eq, Bool.and_eq_true, decide_eq_true_eq] at h
  obtain ⟨⟨⟨h2, h3⟩, h4⟩, h5⟩ := h
  have k1 := pos01 t m h0 h1 _ h2 h4
  have k2 := pos01 t m h0 h1 _ h3 h5
  rw [ev_add, ev_smul] at k1
  rw [ev_sub, ev_smul] at k2
  rw [abs_le, show 1 / (e:ℝ) * ev D y = ev D y / e by ring]
  constructor
  · rw [← neg_div, div_le_iff₀ he']; linarith
  · rw [le_div_iff₀ he']; linarith

theorem ev_tail (p : List ℤ) (h : p.headD 0 = 0) (y : ℝ) : ev p y = y * ev p.tail y := by
  cases p with
  | nil => simp [ev]
  | cons a p => simp at h; simp [ev, h]

set_option maxRecDepth 100000
theorem cert_del : chk01 400 (10 ^ 15) 24 Ndel.tail (smul (30 * 50) iDen) = true := by decide +kernel
theorem cert_sig : chk01 400 (10 ^ 16) 24 Nsig.tail.tail (smul (30 * 10) iDen) = true := by decide +kernel
theorem head_del : Ndel.headD 0 = 0 := by decide +kernel
theorem head_sig : Nsig.headD 0 = 0 ∧ Nsig.tail.headD 0 = 0 := by decide +kernel

end Bes
end Verif
