import Verif.Proofs.FadAsyF

/-! The asymptotic branch of `faddeeva`: truncation errors and the quantities `1/z`, `1/z²` as computed. -/

namespace Verif
namespace Fad
open Complex F64

theorem pq {z : ℂ} (h : z ≠ 0) : (-(I / 2) * z⁻¹) * (2 * I * z) = 1 := by
  have : z⁻¹ * z = 1 := inv_mul_cancel₀ h
  linear_combination -I * I * this - Complex.I_mul_I

theorem p_norm (z : ℂ) : ‖-(I / 2) * z⁻¹‖ = ‖z‖⁻¹ / 2 := by
  rw [norm_mul, norm_neg, norm_div, Complex.norm_I, norm_inv, Complex.norm_ofNat]; ring

theorem q_re {z : ℂ} (h : 0 ≤ z.im) : (2 * I * z).re ≤ 0 := by
  rw [show 2 * I * z = ((2:ℝ):ℂ) * (I * z) by push_cast; ring, Complex.re_ofReal_mul, Complex.I_mul_re]
  linarith

theorem p_sq (z : ℂ) : (-(I / 2) * z⁻¹)^2 = -(z⁻¹)^2 / 4 := by
  have i2 : I^2 = -1 := Complex.I_sq
  linear_combination (z⁻¹)^2 / 4 * i2

theorem kap_le : kap ≤ 1.13 := kap_bounds.2.trans (by norm_num)

/-- one term -/
theorem w1 {z : ℂ} (h0 : z ≠ 0) (h : 0 ≤ z.im) : ‖(kap : ℂ) * (1/2) * (I * z⁻¹) - faddeevaW z‖ ≤ 1.7 * (‖z‖⁻¹)^3 := by
  have e := ex2 (pq h0)
  have s := st2 (2 * I * z)
  have t2 : T2 (2 * I * z) = (-(I / 2) * z⁻¹) * (T3 (2 * I * z) + 2) := by
    linear_combination (-(I / 2) * z⁻¹) * s - T2 (2 * I * z) * pq h0
  have b : ‖T3 (2 * I * z) + 2‖ ≤ 12 := (norm_add_le _ _).trans ((add_le_add (tb3 (q_re h)) (by rw [Complex.norm_ofNat])).trans (by norm_num))
  have d : (kap : ℂ) * (1/2) * (I * z⁻¹) - faddeevaW z = -((kap : ℂ) * ((-(I / 2) * z⁻¹)^3 * (T3 (2 * I * z) + 2))) := by
    rw [w_ray, e, t2]; ring
  rw [d, norm_neg, norm_mul, norm_mul, norm_pow, p_norm, Complex.norm_real, Real.norm_eq_abs, abs_of_pos kap_pos]
  have m : 0 ≤ ‖z‖⁻¹ := inv_nonneg.2 (norm_nonneg _)
  generalize ‖z‖⁻¹ = u at *
  calc kap * ((u / 2)^3 * ‖T3 (2 * I * z) + 2‖) ≤ 1.13 * ((u / 2)^3 * 12) := mul_le_mul kap_le (mul_le_mul_of_nonneg_left b (by positivity)) (by positivity) (by norm_num)
    _ = 1.695 * u^3 := by ring
    _ ≤ _ := mul_le_mul_of_nonneg_right (by norm_num) (by positivity)

/-- four terms -/
theorem w4 {z : ℂ} (hz : 149 ≤ ‖z‖) (h : 0 ≤ z.im) : ‖hA ((z⁻¹)^2) (I * z⁻¹) (((kap * (15/16) : ℝ) : ℂ) * (z⁻¹)^2) A3 - faddeevaW z‖ ≤ 1.5 / 10^15 * ‖z‖⁻¹ := by
  have h0 : z ≠ 0 := by rintro rfl; norm_num at hz
  have e := ex8 (pq h0)
  have s := st8 (2 * I * z)
  have t8 : T8 (2 * I * z) = (-(I / 2) * z⁻¹) * (T9 (2 * I * z) - 1680) := by
    linear_combination (-(I / 2) * z⁻¹) * s - T8 (2 * I * z) * pq h0
  have b : ‖T9 (2 * I * z) - 1680‖ ≤ 139296 := (norm_sub_le _ _).trans ((add_le_add (tb9 (q_re h)) (by rw [Complex.norm_ofNat])).trans (by norm_num))
  have d : hA ((z⁻¹)^2) (I * z⁻¹) (((kap * (15/16) : ℝ) : ℂ) * (z⁻¹)^2) A3 - faddeevaW z = -((kap : ℂ) * ((-(I / 2) * z⁻¹)^9 * (T9 (2 * I * z) - 1680))) := by
    rw [w_ray, e, t8]
    have : (-(I / 2) * z⁻¹)^9 = ((-(I / 2) * z⁻¹)^2)^4 * (-(I / 2) * z⁻¹) := by ring
    rw [this, p_sq]
    simp only [hA, A3]
    push_cast
    ring
  rw [d, norm_neg, norm_mul, norm_mul, norm_pow, p_norm, Complex.norm_real, Real.norm_eq_abs, abs_of_pos kap_pos]
  have m : 0 ≤ ‖z‖⁻¹ := inv_nonneg.2 (norm_nonneg _)
  have m2 : ‖z‖⁻¹ ≤ 1/149 := by rw [← one_div]; exact one_div_le_one_div_of_le (by norm_num) hz
  generalize ‖z‖⁻¹ = u at *
  have u8 : u^8 ≤ (1/149)^8 := pow_le_pow_left₀ m m2 8
  calc kap * ((u / 2)^9 * ‖T9 (2 * I * z) - 1680‖) ≤ 1.13 * ((u / 2)^9 * 139296) := mul_le_mul kap_le (mul_le_mul_of_nonneg_left b (by positivity)) (by positivity) (by norm_num)
    _ = (1.13 * 139296 / 2^9 * u^8) * u := by ring
    _ ≤ (1.13 * 139296 / 2^9 * (1/149)^8) * u := mul_le_mul_of_nonneg_right (mul_le_mul_of_nonneg_left u8 (by norm_num)) m
    _ ≤ _ := mul_le_mul_of_nonneg_right (by norm_num) m

/-- twelve terms -/
theorem w12 {z : ℂ} (hz : 23 ≤ ‖z‖) (h : 0 ≤ z.im) :
    ‖hA ((z⁻¹)^2) (I * z⁻¹) (((kap * (13749310575/4096) : ℝ) : ℂ) * (z⁻¹)^2) A11 - faddeevaW z‖ ≤ 1.5 / 10^15 * ‖z‖⁻¹ := by
  have h0 : z ≠ 0 := by rintro rfl; norm_num at hz
  have e := ex24 (pq h0)
  have b := tb24 (q_re h)
  have d : hA ((z⁻¹)^2) (I * z⁻¹) (((kap * (13749310575/4096) : ℝ) : ℂ) * (z⁻¹)^2) A11 - faddeevaW z = -((kap : ℂ) * ((-(I / 2) * z⁻¹)^24 * T24 (2 * I * z))) := by
    rw [w_ray, e]
    have : (-(I / 2) * z⁻¹)^24 = ((-(I / 2) * z⁻¹)^2)^12 := by ring
    rw [this, p_sq]
    simp only [hA, A11, A3, List.cons_append, List.nil_append]
    push_cast
    ring
  rw [d, norm_neg, norm_mul, norm_mul, norm_pow, p_norm, Complex.norm_real, Real.norm_eq_abs, abs_of_pos kap_pos]
  have m : 0 ≤ ‖z‖⁻¹ := inv_nonneg.2 (norm_nonneg _)
  have m2 : ‖z‖⁻¹ ≤ 1/23 := by rw [← one_div]; exact one_div_le_one_div_of_le (by norm_num) hz
  generalize ‖z‖⁻¹ = u at *
  have u8 : u^23 ≤ (1/23)^23 := pow_le_pow_left₀ m m2 23
  calc kap * ((u / 2)^24 * ‖T24 (2 * I * z)‖) ≤ 1.13 * ((u / 2)^24 * 4721920389440077824) := mul_le_mul kap_le (mul_le_mul_of_nonneg_left b (by positivity)) (by positivity) (by norm_num)
    _ = (1.13 * 4721920389440077824 / 2^24 * u^23) * u := by ring
    _ ≤ (1.13 * 4721920389440077824 / 2^24 * (1/23)^23) * u := mul_le_mul_of_nonneg_right (mul_le_mul_of_nonneg_left u8 (by norm_num)) m
    _ ≤ _ := mul_le_mul_of_nonneg_right (by norm_num) m

theorem cap40 {M : ℝ} (h1 : 1 / 10^100 ≤ M) (h2 : M ≤ 10^20) : Cap M := by
  refine ⟨le_trans ?_ h1, (cap_of (M := 10^20) (by norm_num) (pow_le_pow_right₀ (by norm_num) (by norm_num))).hi.trans' h2⟩
  refine one_div_le_one_div_of_le (by positivity) ?_
  calc (10:ℝ)^100 ≤ (2^4)^100 := pow_le_pow_left₀ (by norm_num) (by norm_num) _
    _ = 2^400 := by rw [← pow_mul]
    _ ≤ _ := pow_le_pow_right₀ (by norm_num) (by norm_num)

theorem ab0 {a : F64} (h : a.isFin = true) (p : ℝ) : Ab a a.val (0 * p) := by rw [zero_mul]; exact ab_self h

/-- |z|² as computed -/
theorem zz_ab {x y : F64} {n : ℝ} (fx : x.isFin = true) (fy : y.isFin = true) (hn : n^2 = x.val^2 + y.val^2) (n1 : 1 ≤ n) (n2 : n ≤ 10^151) :
    Ab (zzOf x y) (n^2) (7.5 / 10^16 * n^2) := by
  have bx : |x.val| ≤ n := abs_le_of_sq_le_sq (by rw [hn]; nlinarith [sq_nonneg y.val]) (by linarith)
  have bY : |y.val| ≤ n := abs_le_of_sq_le_sq (by rw [hn]; nlinarith [sq_nonneg x.val]) (by linarith)
  have nn : 1 ≤ n * n := by nlinarith
  have nb : n * n ≤ 10^302 := by
    calc n * n ≤ 10^151 * 10^151 := mul_le_mul n2 n2 (by linarith) (by positivity)
      _ = _ := by rw [← pow_add]
  have cap : Cap (1.1 * (n * n)) := cap_of (le_trans (by norm_num) (show (1:ℝ) ≤ _ by norm_num; linarith)) (by
    have : (10:ℝ)^303 = 10 * 10^302 := by rw [pow_succ (10:ℝ) 302]; ring
    rw [this]
    clear this n2 hn
    generalize (10:ℝ)^302 = W at *
    linarith only [nb, nn])
  have a1 : Ab x.abs |x.val| (0 * n) := by have := ab0 (a := x.abs) (by rw [isFin_abs]; exact fx) n; rwa [val_abs] at this
  have m1 := rm a1 a1 (by rwa [abs_abs]) (by rwa [abs_abs]) le_rfl le_rfl (by norm_num) (by norm_num) cap
  have m2 := rm (ab0 fy n) (ab0 fy n) bY bY le_rfl le_rfl (by norm_num) (by norm_num) cap
  have e : |x.val| * |x.val| + y.val * y.val = n^2 := by rw [abs_mul_abs_self, hn]; ring
  have w : 0 < n * n := by linarith
  have := ab_add m1 m2 (M := 1.1 * (n * n)) (by
    rw [e, abs_of_pos (by positivity), show n^2 = n * n by ring]
    calc n * n + ((0 + 0 + 2.5 / 10^16) * (n * n) + (0 + 0 + 2.5 / 10^16) * (n * n)) = (1 + 5 / 10^16) * (n * n) := by ring
      _ ≤ _ := mul_le_mul_of_nonneg_right (by norm_num) w.le) cap
  rw [e] at this
  refine this.mono ?_
  calc (0 + 0 + 2.5 / 10^16) * (n * n) + (0 + 0 + 2.5 / 10^16) * (n * n) + 1.1 * (n * n) / 2^52 = (5 / 10^16 + 1.1 / 2^52) * n^2 := by ring
    _ ≤ _ := mul_le_mul_of_nonneg_right (by norm_num) (by positivity)

theorem inv_c {z : ℂ} {X Y n : ℝ} (hz : z = ⟨X, Y⟩) (hn : n^2 = X^2 + Y^2) (n0 : 0 < n) : z⁻¹ = ⟨X / n^2, -Y / n^2⟩ := by
  have : Complex.normSq z = n^2 := by rw [hz, Complex.normSq_apply, hn]; ring
  apply Complex.ext
  · rw [Complex.inv_re, this, hz]
  · rw [Complex.inv_im, this, hz]

/-- the quantities `i/z` and `1/z²` as computed -/
theorem rr_ab {x y : F64} {n : ℝ} (fx : x.isFin = true) (fy : y.isFin = true) (hn : n^2 = x.val^2 + y.val^2) (n1 : 7 ≤ n) (n2 : n ≤ 10^8) (y0 : 0 ≤ y.val) :
    let zm2 := 1.0 / zzOf x y
    Nr (2.1 / 10^15 * (1 / n)) ⟨y.abs * zm2, x * zm2⟩ (I * (⟨x.val, y.val⟩ : ℂ)⁻¹) ∧
    Nr (1.1 / 10^14 * (1 / n^2)) ⟨zm2 * zm2 * (x + y.abs) * (x - y.abs), -2.0 * (zm2 * zm2) * x * y.abs⟩ ((⟨x.val, y.val⟩ : ℂ)⁻¹^2) := by
  intro zm2
  have n0 : 0 < n := by linarith
  have N0 : 0 < n^2 := by positivity
  have N1 : 49 ≤ n^2 := by nlinarith
  have N2 : n^2 ≤ 10^16 := by
    calc n^2 ≤ (10^8)^2 := pow_le_pow_left₀ n0.le n2 2
      _ = _ := by norm_num
  have i1 : 1 / n ≤ 1/7 := one_div_le_one_div_of_le (by norm_num) n1
  have i2 : 1 / 10^8 ≤ 1 / n := one_div_le_one_div_of_le n0 n2
  have j1 : 1 / n^2 ≤ 1/49 := one_div_le_one_div_of_le (by norm_num) N1
  have j2 : 1 / 10^16 ≤ 1 / n^2 := one_div_le_one_div_of_le N0 N2
  have e1 : n * (1 / n^2) = 1 / n := by field_simp
  have e2 : 1 / n * (1 / n) = 1 / n^2 := by field_simp
  have bx : |x.val| ≤ n := abs_le_of_sq_le_sq (by rw [hn]; nlinarith [sq_nonneg y.val]) n0.le
  have bY : |y.val| ≤ n := abs_le_of_sq_le_sq (by rw [hn]; nlinarith [sq_nonneg x.val]) n0.le
  have fa : y.abs.isFin = true := by rw [isFin_abs]; exact fy
  have va : y.abs.val = y.val := by rw [val_abs, abs_of_nonneg y0]
  have zz := zz_ab fx fy hn (by linarith) (n2.trans (pow_le_pow_right₀ (by norm_num) (by norm_num)))
  have one : Ab (1.0 : F64) 1 0 := ab_int (by decide +kernel) (by exact_mod_cast val_of_int (x := (1.0 : F64)) 1 (by decide +kernel))
  have z2 : Ab zm2 (1 / n^2) (1.75 / 10^15 * (1 / n^2)) := by
    have ee : |(1:ℝ)| * (7.5 / 10^16 * n^2 / n^2) = 7.5 / 10^16 := by rw [abs_one, one_mul]; field_simp
    refine (ab_div one zz N0 (by norm_num; linarith) (M := 1.1 * (1 / n^2)) ?_ (capC (by norm_num at j2 ⊢; linarith) (by norm_num at j1 ⊢; linarith))).mono ?_
    · rw [ee, abs_one]
      calc 1 / n^2 + 2 * (0 + 7.5 / 10^16) / n^2 = (1 + 15 / 10^16) * (1 / n^2) := by ring
        _ ≤ _ := mul_le_mul_of_nonneg_right (by norm_num) (by positivity)
    · rw [ee]
      calc 2 * (0 + 7.5 / 10^16) / n^2 + 1.1 * (1 / n^2) / 2^52 = (15 / 10^16 + 1.1 / 2^52) * (1 / n^2) := by ring
        _ ≤ _ := mul_le_mul_of_nonneg_right (by norm_num) (by positivity)
  have q0 : |1 / n^2| ≤ 1 / n^2 := by rw [abs_of_pos (by positivity)]
  have c1 : Cap (1.1 * (n * (1 / n^2))) := by rw [e1]; exact capC (by norm_num at i2 ⊢; linarith) (by norm_num at i1 ⊢; linarith)
  have cj : 1 / 10^32 ≤ 1 / n^2 * (1 / n^2) := by
    calc (1:ℝ) / 10^32 = 1 / 10^16 * (1 / 10^16) := by norm_num
      _ ≤ _ := mul_le_mul j2 j2 (by norm_num) (by positivity)
  have cj' : 1 / n^2 * (1 / n^2) ≤ 1 := by
    calc 1 / n^2 * (1 / n^2) ≤ 1/49 * (1/49) := mul_le_mul j1 j1 (by positivity) (by norm_num)
      _ ≤ 1 := by norm_num
  set k4 := 1 / n^2 * (1 / n^2) with hk4
  have k0 : 0 < k4 := by positivity
  have ek : k4 * n * n = 1 / n^2 := by rw [hk4]; field_simp
  have ck1 : 1 / 10^32 ≤ k4 * n := cj.trans (by nlinarith)
  have ck2 : k4 * n ≤ 10^8 := by
    calc k4 * n ≤ 1 * 10^8 := mul_le_mul cj' n2 n0.le (by norm_num)
      _ = _ := one_mul _
  have z4 : Ab (zm2 * zm2) k4 (3.75 / 10^15 * k4) := by
    refine (rm z2 z2 q0 q0 (by norm_num) (by norm_num) (by norm_num) (by norm_num) (by rw [← hk4]; exact cap40 (by norm_num at cj ⊢; linarith) (by norm_num at cj' ⊢; linarith))).mono (le_of_eq ?_)
    rw [← hk4]; norm_num
  have ak : |k4| ≤ k4 := by rw [abs_of_pos k0]
  have bs : |x.val + y.val| ≤ 1.5 * n := abs_le_of_sq_le_sq (by nlinarith [sq_nonneg (x.val - y.val)]) (by linarith)
  have bd : |x.val - y.val| ≤ 1.5 * n := abs_le_of_sq_le_sq (by nlinarith [sq_nonneg (x.val + y.val)]) (by linarith)
  have aY : Ab y.abs y.val (0 * n) := by have := ab0 fa n; rwa [va] at this
  have aX : Ab x x.val (0 * n) := ab0 fx n
  have cn : Cap (1.5 * n) := cap40 (le_trans (by norm_num) (show (1:ℝ) ≤ _ by linarith)) (by norm_num at n2 ⊢; linarith)
  have s : Ab (x + y.abs) (x.val + y.val) (2.3 / 10^16 * (1.5 * n)) :=
    (ab_add aX aY (M := 1.5 * n) (by norm_num at bs ⊢; linarith) cn).mono (by norm_num; linarith)
  have d : Ab (x - y.abs) (x.val - y.val) (2.3 / 10^16 * (1.5 * n)) :=
    (ab_sub aX aY (M := 1.5 * n) (by norm_num at bd ⊢; linarith) cn).mono (by norm_num; linarith)
  have m1 := rm z4 s ak bs (by norm_num) (by norm_num) (by norm_num) (by norm_num) (cap40 (by
    rw [show 1.1 * (k4 * (1.5 * n)) = 1.65 * (k4 * n) by ring]; norm_num at ck1 ⊢; linarith) (by rw [show 1.1 * (k4 * (1.5 * n)) = 1.65 * (k4 * n) by ring]; norm_num at ck2 ⊢; linarith))
  have m2 := rm m1 d (by rw [abs_mul, abs_of_pos k0]; exact mul_le_mul_of_nonneg_left bs k0.le) bd (by norm_num) (by norm_num) (by norm_num) (by norm_num) (cap40 (by
    rw [show 1.1 * (k4 * (1.5 * n) * (1.5 * n)) = 2.475 * (k4 * n * n) by ring, ek]; norm_num at j2 ⊢; linarith) (by
    rw [show 1.1 * (k4 * (1.5 * n) * (1.5 * n)) = 2.475 * (k4 * n * n) by ring, ek]; norm_num at j1 ⊢; linarith))
  have v2 : (-2.0 : F64).val = -2 := by exact_mod_cast val_of_int (x := (-2.0 : F64)) (-2) (by decide +kernel)
  have t2 : Ab (-2.0 : F64) (-2) (0 * 2) := by rw [zero_mul]; exact ab_int (by decide +kernel) v2
  have h1 := rm t2 z4 (by norm_num) ak (by norm_num) (by norm_num) (by norm_num) (by norm_num) (cap40 (by norm_num at cj ⊢; linarith) (by norm_num at cj' ⊢; linarith))
  have h2 := rm h1 aX (by rw [abs_mul, abs_of_pos k0]; norm_num) bx (by norm_num) (by norm_num) (by norm_num) (by norm_num) (cap40 (by
    rw [show 1.1 * (2 * k4 * n) = 2.2 * (k4 * n) by ring]; norm_num at ck1 ⊢; linarith) (by rw [show 1.1 * (2 * k4 * n) = 2.2 * (k4 * n) by ring]; norm_num at ck2 ⊢; linarith))
  have h3 := rm h2 aY (by
      rw [abs_mul, abs_mul, abs_of_pos k0]
      have := mul_le_mul_of_nonneg_left bx k0.le
      norm_num; linarith) bY (by norm_num) (by norm_num) (by norm_num) (by norm_num) (cap40 (by
    rw [show 1.1 * (2 * k4 * n * n) = 2.2 * (k4 * n * n) by ring, ek]; norm_num at j2 ⊢; linarith) (by
    rw [show 1.1 * (2 * k4 * n * n) = 2.2 * (k4 * n * n) by ring, ek]; norm_num at j1 ⊢; linarith))
  have ra := rm aY z2 bY q0 (by norm_num) (by norm_num) (by norm_num) (by norm_num) c1
  have rb := rm aX z2 bx q0 (by norm_num) (by norm_num) (by norm_num) (by norm_num) c1
  rw [e1] at ra rb
  have iz := inv_c (z := ⟨x.val, y.val⟩) rfl hn n0
  have p1 : (0:ℝ) < 1 / n := by positivity
  have p2 : (0:ℝ) < 1 / n^2 := by positivity
  rw [iz]
  refine ⟨⟨?_, ?_⟩, ⟨?_, ?_⟩⟩
  · have : (I * (⟨x.val / n^2, -y.val / n^2⟩ : ℂ)).re = y.val * (1 / n^2) := by rw [Complex.I_mul_re]; ring
    rw [this]
    exact ra.mono (mul_le_mul_of_nonneg_right (by norm_num) p1.le)
  · have : (I * (⟨x.val / n^2, -y.val / n^2⟩ : ℂ)).im = x.val * (1 / n^2) := by rw [Complex.I_mul_im]; ring
    rw [this]
    exact rb.mono (mul_le_mul_of_nonneg_right (by norm_num) p1.le)
  · have : ((⟨x.val / n^2, -y.val / n^2⟩ : ℂ)^2).re = k4 * (x.val + y.val) * (x.val - y.val) := by rw [sq, Complex.mul_re, hk4]; ring
    rw [this]
    refine m2.mono ?_
    rw [show k4 * (1.5 * n) * (1.5 * n) = 2.25 * (k4 * n * n) by ring, ek, ← mul_assoc]
    exact mul_le_mul_of_nonneg_right (by norm_num) p2.le
  · have : ((⟨x.val / n^2, -y.val / n^2⟩ : ℂ)^2).im = -2 * k4 * x.val * y.val := by rw [sq, Complex.mul_im, hk4]; ring
    rw [this]
    refine h3.mono ?_
    rw [show 2 * k4 * n * n = 2 * (k4 * n * n) by ring, ek, ← mul_assoc]
    exact mul_le_mul_of_nonneg_right (by norm_num) p2.le

end Fad
end Verif
