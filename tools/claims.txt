C01 partial
thm: frexp_exact_partial frexp_zero frexp_subnormal_wrong
note: Proved for every normal number and for zeros; refuted for every non-zero subnormal number (frexp_subnormal_wrong).

C02 partial
thm: ldexp_exact_partial ldexp_underflow_wrong ldexp_overflow_nan
note: The exactness half is proved in full; the overflow half is refuted: results below the normal range become infinity, and an exponent sum of 0x7ff gives NaN or infinity.

C03 proved
thm: ldexp_frexp ldexp_frexp_nzero
note: Holds for every x other than -0 (also subnormal, infinite and NaN inputs); -0 gives +0.

C04 proved
thm: sign_spec sign_val
note: Every pair of f64.

C05 proved
thm: factorial_exact rising_factorial_exact factorial_max_panics
note: Every n up to usize::MAX-60. At usize::MAX the block counter overflows (factorial_max_panics).

C06 proved
thm: factorial_accurate factorial_small factorial_inf
note: All three parts; n up to usize::MAX-60.

C07 proved
thm: factorial_mono
note: n up to usize::MAX-61.

C52 proved
thm: Cache.cache_transparent caches_transparent
note: Any history of operations, any stateful or panicking predicate in retain, any visiting order.

C53 proved
thm: Cache.cache_holds_true_values caches_hold_true_values

C54 proved
thm: Cache.cache_call_get Cache.cache_key_exact Cache.cache_zero_keys_differ Cache.cache_nan_keys_differ

C55 proved
thm: Cache.cache_len Cache.cache_call_len Cache.cache_observers

C56 proved
thm: Cache.cache_retain Cache.cache_retain_pure

C57 proved
thm: Cache.cache_panic_unchanged

C65 proved
thm: Cache.cache_eq

C08 proved
thm: gamma_at_zero gamma_poles gamma_overflow

C09 proved
thm: gamma_nan_iff

C10 proved
thm: gamma_int gamma_int_accurate

C11 proved
thm: gamma_returns

C12 proved
thm: gamma_pos gamma_neg_sign

C13 proved
thm: gamma_functional_equation
note: Exact arithmetic (the generic code instantiated at the reals).

C14 proved
thm: gammpq_panic_iff gammpq_panic_nan

C15 proved
thm: gammpq_complementary isCompl_sum

C16 proved
thm: gammpq_at_zero gammpq_at_inf gammpq_far

C17 partial
thm: gammpq_range_partial gammp_exceeds_one
note: False of the code: gammp(5.6e-17, 1e-20) > 1 (gammp_exceeds_one). Proved: both results are >= 0 or NaN for every valid pair, and at least one of them is in [0,1] or NaN. Assumes LibmAcc for exp and ln.

C18 partial
thm: gammp_misses_small_a gammp_cutoff gser_series_partial gammpq_accurate_partial
note: False of the code: gammp returns 0 below a*2^-52 where the true value can be close to 1. Proved: in exact arithmetic the series branch converges to the lower incomplete gamma function with an explicit error bound; in binary64, with rounding and the Lanczos error, the result is within 1e-8 + 1e-12/a of P(a,x) for every 1e-12 <= a < 100 and every x >= 0 outside that cut-off (assumes LibmUlp). Missing: a >= 100 and a < 1e-12.

C19 partial
thm: ln_gamma_finite_partial ln_gamma_overflows
note: False of the code for 0 < z <= 2^-54 (+inf there, proved); finite for 2^-54 < z <= 1e300 (proved). Assumes LibmSpec.

C20 proved
thm: invgammp_panics invgammp_saturates

C21 proved
thm: invgammp_nonneg

C64 partial
thm: gammpq_nan gammpq_nan_iff_partial
note: False of the code: NaN in a region with a >= 100, 0.2a <= x <= a-1. Proved: for a <= 2^52 NaN exactly in that region. Missing: a > 2^52. Assumes LibmAcc.

C22 proved
thm: beta_panic_iff beta_symm beta_nonneg beta_number
note: beta_nonneg and beta_number assume LibmSpec (sign and monotonicity facts of the platform exp/ln). beta_number adds: a number, not NaN, for arguments between 2^-53 and 1e299.

C23 proved
thm: betai_panic_iff betai_end_points

C24 partial
thm: betai_large_wrong betai_reflection_partial
note: False of the code: for every 3000 < a <= 2^50, betai(a,a,1/2) is zero or NaN (betai_large_wrong, assumes LibmAcc). Proved instead: the reflection I_x(a,b) + I_(1-x)(b,a) = 1 in exact arithmetic when the calls take different branches. Accuracy for small parameters is C78.

C25 proved
thm: invbetai_saturates invbetai_range

C26 proved
thm: erf_panic_iff

C27 proved
thm: erf_odd erfc_reflect
note: Equality as numbers: the sign of a zero result is not claimed.

C28 proved
thm: erf_range
note: Assumes LibmAcc for the platform exp.

C29 proved
thm: inverf_saturates inverfc_reflect inverf_nan
note: inverf_nan assumes LibmSpec.

C30 proved
thm: erfcx_total
note: NaN-freeness assumes LibmSpec for exp.

C31 proved
thm: erfcx_positive
note: Assumes LibmSpec for exp.

C32 proved
thm: erfcx_no_jumps
note: Stronger than the property: for all neighbouring floats in [0.125, 12], not only at table boundaries; includes the rounding errors.

C33 proved
thm: erfcx_reflect

C34 proved
thm: erfcx_accurate erfcx_accurate_right erfcx_accurate_all erfcx_overflow
note: All rounding errors included; the negative branches assume exp is correct to one unit in the last place (LibmUlp); the true function is defined as an integral in Verif.SpecFun.

C35 proved
thm: dawson_odd dawson_odd_panics
note: No assumption on the math library.

C36 partial
thm: dawson_total_partial dawson_overflow dawson_nan
note: False of the code: with overflow checks dawson panics for |x| >= 7.4e18 (dawson_overflow), without them dawson(4454812037869711872) is NaN (dawson_nan). Proved instead: finite for all |x| <= 2^54 (assumes LibmAcc).

C63 partial
thm: dawson_wrong dawson_accurate_partial dawson_small_pos
note: False of the code: dawson(0.5) <= -0.4 although the true value is positive (dawson_wrong, assumes LibmAcc); the loop updates its running terms before using them. Proved instead: accuracy |x|/10^7 + 2^-1074 for all |x| < 0.2 and positivity on (0, 0.2).

C37 proved
thm: faddeeva_total faddeeva_panic_iff faddeeva_total_checked
note: Index and assertion panics never occur; the only panic, with overflow checks on, is the integer overflow inside dawson (faddeeva_panic_iff). Assumes LibmSpec for exp (erfcx).

C38 partial
thm: faddeeva_conj_partial faddeeva_conj_fails faddeeva_asy_conj
note: False of the code in the last bits: z = 7.75+2.5i (faddeeva_conj_fails). Proved instead: equality as numbers outside the region of the asymptotic expansion (49 <= |z|^2 <= 4.8e15), and symmetry of the asymptotic expansion in exact arithmetic. Assumes LibmSpec (sin odd, cos even).

C39 proved
thm: faddeeva_real_axis faddeeva_imag_axis
note: Equality as numbers, for all arguments including subnormal ones. faddeeva_real_axis assumes LibmSpec.

C40 proved
thm: faddeeva_nan

C41 proved
thm: Jn_parity
note: Equality as numbers (the sign of a zero result is not determined), for every number x including infinities; both sides panic together.

C42 partial
thm: In_parity_partial In_parity_fails
note: False of the code at order 1 for |x| >= 15: In(1,20) > 10^5 but |In(1,-20)| < 1 (In_parity_fails, assumes LibmAcc; the code calls exp(x) instead of exp(|x|)). Proved instead: every order except 1, and order 1 for |x| < 15.

C43 proved
thm: Yn_recurrence Kn_recurrence Jn_recurrence Jn_recurrence_neg
note: Bit for bit for Yn, Kn at every x and for Jn at x > n+1; for x < -(n+1) up to the sign of a zero result.

C44 proved
thm: Yn_negative_nan Kn_negative_nan
note: Assumes LibmSpec (exp NaN is NaN, ln of a negative number or NaN is NaN).

C45 partial
thm: bessel_nan_partial Jn_nan_fails
note: False of the code for Jn: Jn(2,NaN) is 2^-1024 (Jn_nan_fails: the rescaling step turns NaN into a number). Proved instead: In at every order, Jn at orders 0 and 1.

C46 partial
thm: Jn_bounded_partial Jn_unbounded
note: False of the code: Jn(20,1e-20) is infinite (Jn_unbounded: rescaling by 2^-512 of an already small value returns infinity). Proved instead: |Jn(n,x)| <= 1 for n = 0, 1 and every finite x (assumes only |sin|,|cos| <= 1).

C47 partial
thm: Jn_panic_iff In_panic_iff bessel_order_partial bessel_order_panics
note: False of the code with overflow checks on: Jn(4294967295,1) and In(2147483648,1) panic (bessel_order_panics). Jn_panic_iff and In_panic_iff give the exact conditions; both functions return for every order up to 2*10^9 (bessel_order_partial).

C48 proved
thm: bessel_reject

C51 proved
thm: JnuYnu_agree InuKnu_agree

C49 proved
thm: besseljy_wronskian
note: In exact arithmetic with undefined values (XR). The hypothesis on jyBase says that the zero test of line 303 did not replace the denominator.

C50 proved
thm: besselik_wronskian
note: In exact arithmetic with undefined values (XR).

C58 proved
thm: gcf_convergent gammq_convergent betacf_convergent betai_convergent betaFraction_unguarded
note: Exact real arithmetic; convergents are Mathlib's GenContFract.convs. For gamma no denominator is ever guarded when x >= a+1 (proved), so there is no hypothesis on guards. For beta the hypothesis Unguarded is proved for x <= 1-2^-970 and x(a+b)/(a+1) <= 1-2^-970.

C59 proved
thm: gserLoop_exact gammp_series
note: Exact real arithmetic, any step count; gammp_series ties it to the public function for the arguments whose exponent stays inside the range in which the model's real exp is not clamped.

C60 proved
thm: chebev_exact erfccheb_exact
note: Mathlib's Chebyshev.T is the specification. erfc's sum runs over the coefficients 1..26 of the 28: the last one, COF[27], is never used by the code.

C61 proved
thm: polynomial_exact poly_exact rat_exact asp_exact bessel_table_lengths
note: Every coefficient list (also the empty one) and every real argument.

C62 proved
thm: Jn_rescaling In_rescaling
note: Orders 2 <= n <= 2*10^9, every argument that reaches the downward recurrence. The sequence b is any solution of the recurrence; downward_exists shows there is one.

C66 proved
thm: erfc_accurate_right erfc_accurate erfc_exact_accurate
note: Bit-exact model of every operation; the platform's exp is assumed to be within one unit in the last place (LibmUlp, witnessed by ideal_ulp). The relative bound for x >= 0 carries an absolute term 1e-296 for results near underflow. erfc_exact_accurate is the same statement for the code run in exact arithmetic (relative 6e-14), i.e. the approximation error of the Chebyshev coefficients alone.

C67 proved
thm: erf_accurate
note: Same assumption as C66. The bound is absolute: erf(x) = 1 - erfc(x) loses relative accuracy near 0.

C68 partial
thm: ln_gamma_accurate_partial ln_gamma_exact_accurate exp_ln_gamma_exact_accurate
note: ln_gamma_accurate_partial is about the bit-exact model, under LibmUlp (the platform's ln is within one unit in the last place), for 1e-12 <= z <= 1e300; ln_gamma_exact_accurate is the error of the Lanczos coefficients alone, in exact arithmetic, for every real z > 0. Missing: z < 1e-12, where z - 1.0 + 1 cancels and the result loses all accuracy (C19 shows it is infinite below 2^-54), and z > 1e300, where the product overflows.

C69 proved
thm: gamma_accurate gamma_accurate_pos gamma_exact_accurate gamma_flush_to_zero
note: Bit-exact model, both settings of the fma target feature, no assumption about libm. gamma_exact_accurate is the approximation error of the two polynomials alone (2.9e-13 relative, exact arithmetic, -240 < z <= 171), proved against Mathlib's Real.Gamma through an explicit Stirling bound. gamma_flush_to_zero exhibits an argument below -170 where the program returns 0 for a normal gamma value, so the bound on z cannot be dropped.

C70 proved
thm: inverfc_accurate inverf_backward inverf_accurate erfc_inverfc inverfc_erfc inverfc_exact_accurate inverf_exact_accurate erfc_bijective inverf_left_edge
note: Bit-exact model under LibmUlp (exp and ln of the platform within one unit in the last place), for 1e-280 <= p < 2; the _exact_ theorems give the error of the method alone (starting value plus two Halley steps) in exact arithmetic. inverf_backward states the accuracy of inverf for negative p as a backward error, and inverf_left_edge shows why: at the double next above -1 the code returns -100.

C71 proved
thm: J0_accurate J1_accurate J0_exact_accurate J1_exact_accurate besselR_characterised
note: J0_accurate and J1_accurate are about binary64 and every finite x; they assume LibmTrig (sin and cos within 2^-52 of the exact values). The exact versions are the model at the reals against the power series of J0 and J1. |x| < 8: interval certificates for the rational functions. |x| >= 8: the error satisfies a linear differential equation whose residual is bounded by certificates; the initial value at 8 is computed from the series. Beyond 8 the bound in binary64 contains the unavoidable effect of rounding the argument of the cosine.

C72 partial
thm: I0_accurate I1_accurate_partial I1_negative_wrong_f64 I0_exact_accurate I1_exact_accurate_partial I1_negative_wrong I_overflows besselR_characterised
note: False of the code for order 1 and x <= -15: I1_negative_wrong (exact arithmetic, every x <= -15) and I1_negative_wrong_f64 (binary64, -680 <= x <= -15) show that the value is far too small, because the code uses exp(x) instead of exp(|x|). Proved instead: order 0 for every real x and in binary64 for |x| <= 690; order 1 for x > -15 and in binary64 for -15 < x <= 690. The binary64 theorems assume LibmUlp (exp to one unit in the last place). False of the code too for 710 <= x <= 713: In(0,x), In(0,-x) and In(1,x) are infinite although the true values are below 2^1023, because exp(x) overflows before it is divided by sqrt(x) (I_overflows; assumes ExpOver: exp is infinite from 710 on). Missing: 690 < |x| < 710 in binary64.

C73 partial
thm: In_accurate_partial In_exact_accurate_partial In_exact_large_wrong In_large_wrong_f64 In_small_infinite In_small_garbage
note: False of the code in two regions. Large x: the starting order of the recurrence depends on n only, so for every x >= 690 the value for order 3 is at least 1.9 percent too large and even exceeds I0(x) (In_exact_large_wrong, In_large_wrong_f64). Tiny values: In(20,1e-20) is infinite (In_small_infinite) and In(20,5e-154) is above 6 (In_small_garbage), although both are practically zero. Proved instead: relative accuracy for 2 <= n <= 2*10^9 and |x| at most the starting order minus 20, in exact arithmetic and in binary64 (there for 2^-400 <= |x| <= 690 and In/I0 >= 2^-990; assumes LibmUlp).

C74 partial
thm: Jn_exact_upward Jn_upward_accurate Jn_exact_downward Jn_small_infinite Jn_small_garbage
note: False of the code in binary64 where the value underflows: Jn(100,0.01) is infinite (Jn_small_infinite) and Jn(5,1e-100) is above 2^400 (Jn_small_garbage), because the rescaling helper returns infinity on underflow. Proved instead: for |x| > n in exact arithmetic and in binary64 (the latter under LibmTrig, with the explicit amplification factor rho = (|x|+1)/(|x|-n+1) and n*rho <= 2^45, which rho_small shows for every n <= 4*10^6); for |x| <= n in exact arithmetic, relative error 2.1e-13 for every 2 <= n <= 2*10^9. Missing: the rounding errors of the downward recurrence in binary64.

C75 partial
thm: Kn_exact_accurate Kn_accurate_partial Kn_underflows
note: Exact arithmetic: every order and every x > 0, no restriction. Binary64: every order n < 2^32, every x between 2^-960 and 680 whose value K_n(x) is at most 2^1000 (assumes LibmUlp: exp and ln to one unit in the last place). False of the code in binary64 for x >= 750: Kn(n,x) is zero for every order, because exp(-x) underflows and both starting values are zero, although K_n(x) is at least 1 for n >= 4000, x <= 1000 (Kn_underflows, assumes LibmAcc). Missing in binary64: 680 < x < 750, where exp(-x) nears and then enters the subnormal range, and values at the edge of overflow.

C76 partial
thm: gammpq_accurate_partial
note: Proved in binary64 for 1e-12 <= a < 100 and every finite x >= 0, except 0 < x < a*2^-52 with a < 1 where the code is wrong (gammp_cutoff): series, continued fraction, both cut-offs and the complement. Assumes LibmUlp (exp and ln to one unit in the last place). Missing: a >= 100 (quadrature, which returns NaN for x <= a-1, see C64) and a < 1e-12.

C77 partial
thm: beta_exact_accurate beta_accurate_partial beta_accurate_wide_partial beta_overflows
note: Exact arithmetic: every z, w > 0, no restriction. Binary64 (assumes LibmUlp: exp and ln to one unit in the last place): 1.6e-8 + 1.1e-12(1/z+1/w), relative, for 1e-5 <= z, w <= 1000 (beta_accurate_partial); with the further term 3.2e-13 (z+w+7) ln(z+w+7), forced by rounding logarithms of that size, for 1e-11 <= z, w <= 1e8 (beta_accurate_wide_partial). False of the code for z <= 2^-54 (or w, by the symmetry C22): beta returns infinity for every 1e-15 <= w <= 1e200 although the true value is about 1/z, exactly 1/z at w = 1 (beta_overflows). Missing in binary64: arguments between 2^-54 and 1e-11, and above 1e8.

C78 partial
thm: betai_exact_accurate_partial betai_accurate_small_b_partial betai_accurate_small_a_partial betai_accurate_unit_partial betai_above_one betai_wrong_branch betai_near_one_wrong
note: False of the code. The branch point is (a+1)/(a+2b) where the continued fraction needs (a+1)/(a+b+2): betai(200,200,23/64) is above 3/2 (betai_above_one), betai(1000,1000,3/8) is above 0.99 where the true value is about 3e-30 (betai_wrong_branch), both in binary64 under LibmUlp. For b <= 1/2 the direct fraction is used up to x = 1 and 9999 steps are not enough: betai(1/2,1/2,x) <= 0.01 for every x from 1-1e-14 to 1-1e-20 where the true value is above 0.99 (betai_near_one_wrong, exact arithmetic). Proved instead, in exact arithmetic for 0 < a, b <= 500: error at most 2e-8 below the branch point (x <= 0.999), and above it when a <= 1 or 1-x is below the mirrored branch point. Proved in binary64, under LibmUlp, when the fraction evaluated has second parameter at most one: b <= 1/2, a <= 1000, x <= 0.999 with relative error 2.3e-8 + 1.3e-10/(1-x) + 1.1e-12(1/a+1/b) (betai_accurate_small_b_partial; Student's distribution is b = 1/2); a <= 1, b <= 1000 above the branch point (betai_accurate_small_a_partial); a, b <= 1, 0.001 <= x <= 0.999 (betai_accurate_unit_partial). Missing: rounding errors of the fraction when both parameters exceed one, parameters above 500 (exact) or 1000.

C79 proved
thm: Y0_exact Y1_exact Y0_accurate Y1_accurate
note: Exact arithmetic: every x > 0. Binary64: every finite x > 0 for order 0, every finite x >= 1e-300 for order 1, under LibmTrig (assumptions on sin, cos and ln met by idealLibm). The function compared with is the series DLMF 10.8.1 (SpecBesselY).

C80 partial
thm: Yn_exact Yn_accurate_small Yn_accurate_mid Yn_accurate_right
note: Exact arithmetic: every order n >= 2 and every x > 0. Binary64: 1e-280 <= x <= 7e6 with the order limited as stated and no value of the recurrence near overflow. Missing in binary64: x > 7e6, very large orders (above 10^6 for x < 8; n(n + 5.4(x+1)sqrt(x)) > 10^14 for 8 <= x < n), x < 1e-280 (where Y_n itself overflows for n >= 2).

C81 partial
thm: invgammp_panics_large invgammp_exact_returns_partial
note: False of the code: under LibmAcc, for every 100 <= a <= 2^52 and every 1e-10 <= p <= 0.45 the call panics (invgammp_panics_large): the first guess falls in the region where gammp is NaN, the next iterate is NaN and gammp asserts on it. What holds: in exact arithmetic the call returns a positive number for every 0 < a < 100 and 0 < p < 1. Missing: the distance to the true quantile, and binary64 for a < 100.

C82 partial
thm: invbetai_exact_returns_partial
note: Proved in exact arithmetic for all a, b > 0: the first guess lies in (0,1) in both branches and the safeguarded step keeps every iterate there, so betai never panics. Missing: binary64, where a density that underflows makes an iterate NaN. The range of whatever is returned in binary64 is C25.

C83 partial
thm: faddeeva_wrong faddeeva_near_imag_wrong faddeeva_disk_accurate faddeeva_far_accurate faddeeva_lower_accurate faddeeva_near_imag_accurate faddeeva_near_imag_lower faddeeva_imag_accurate faddeeva_real_re faddeeva_real_im
note: False of the code on the real axis: Im faddeeva(0.5,0) <= -1/4 where Im w(0.5) is positive (faddeeva_wrong, inherited from dawson, C63); and false next to the imaginary axis: Im faddeeva(1e22, 7.3e32) < -2e6 where |w| <= 1e-32, by cancellation (faddeeva_near_imag_wrong, no assumption on libm). Proved instead, in binary64: the imaginary axis for y >= -26.6, y != 0 (relative 1e-13, LibmUlp); on the real axis the real part for 0 < |x| <= 26 (relative 2e-13, LibmUlp) and the imaginary part for 0 < |x| < 0.2; off the axes, every finite z with |z| <= 0.23 whose coordinates differ by a factor of at most 9e7 (both components within 1e-14, no assumption on libm; faddeeva_disk_accurate covers the three Maclaurin polynomials), and every z in the upper half-plane with |z|^2 >= 49.01, coordinates up to 1e150 and again within a factor 9e7 of each other (error 2e-14 |w(z)|, no assumption on libm; faddeeva_far_accurate covers the 20-term, 12-term and 4-term expansions and the leading term used beyond |z|^2 = 4.8e15). In the lower half-plane, for 49.01 <= |z|^2 <= 1e13 and y^2 - x^2 <= 600 under LibmTrig, the error is at most 1e-14 (1/|z| + |z|^2 |exp(-z^2)|), the second term being the condition of exp(-z^2) (faddeeva_lower_accurate). Next to the positive imaginary axis, for 1e-180 <= y <= 1000 and 0 < |x| <= 0.99e-8 y, the error is at most 1.2e-13 |w(z)| (LibmUlp, faddeeva_near_imag_accurate); for -3 <= y <= -1e-180 and 0 < |x| <= 0.99e-8 |y| it is at most 3e-13 |w(z)| (faddeeva_near_imag_lower). The function compared with is the definition by a complex line integral (SpecFaddeeva). Missing: near the real axis; off the axes, 0.0529 < |z|^2 < 49.01 and the lower half-plane beyond that; and the real axis beyond.
