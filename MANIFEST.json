{
 "claims": [
  {
   "property": "C01",
   "status": "partial",
   "theorems": [
    "Verif.frexp_exact_partial",
    "Verif.frexp_zero",
    "Verif.frexp_subnormal_wrong"
   ],
   "note": "Proved for every normal number and for zeros; refuted for every non-zero subnormal number (frexp_subnormal_wrong)."
  },
  {
   "property": "C02",
   "status": "partial",
   "theorems": [
    "Verif.ldexp_exact_partial",
    "Verif.ldexp_underflow_wrong",
    "Verif.ldexp_overflow_nan"
   ],
   "note": "The exactness half is proved in full; the overflow half is refuted: results below the normal range become infinity, and an exponent sum of 0x7ff gives NaN or infinity."
  },
  {
   "property": "C03",
   "status": "proved",
   "theorems": [
    "Verif.ldexp_frexp",
    "Verif.ldexp_frexp_nzero"
   ],
   "note": "Holds for every x other than -0 (also subnormal, infinite and NaN inputs); -0 gives +0."
  },
  {
   "property": "C04",
   "status": "proved",
   "theorems": [
    "Verif.sign_spec",
    "Verif.sign_val"
   ],
   "note": "Every pair of f64."
  },
  {
   "property": "C05",
   "status": "proved",
   "theorems": [
    "Verif.factorial_exact",
    "Verif.rising_factorial_exact",
    "Verif.factorial_max_panics"
   ],
   "note": "Every n up to usize::MAX-60. At usize::MAX the block counter overflows (factorial_max_panics)."
  },
  {
   "property": "C06",
   "status": "proved",
   "theorems": [
    "Verif.factorial_accurate",
    "Verif.factorial_small",
    "Verif.factorial_inf"
   ],
   "note": "All three parts; n up to usize::MAX-60."
  },
  {
   "property": "C07",
   "status": "proved",
   "theorems": [
    "Verif.factorial_mono"
   ],
   "note": "n up to usize::MAX-61."
  },
  {
   "property": "C08",
   "status": "proved",
   "theorems": [
    "Verif.gamma_at_zero",
    "Verif.gamma_poles",
    "Verif.gamma_overflow"
   ],
   "note": ""
  },
  {
   "property": "C09",
   "status": "proved",
   "theorems": [
    "Verif.gamma_nan_iff"
   ],
   "note": ""
  },
  {
   "property": "C10",
   "status": "proved",
   "theorems": [
    "Verif.gamma_int",
    "Verif.gamma_int_accurate"
   ],
   "note": ""
  },
  {
   "property": "C11",
   "status": "proved",
   "theorems": [
    "Verif.gamma_returns"
   ],
   "note": ""
  },
  {
   "property": "C12",
   "status": "proved",
   "theorems": [
    "Verif.gamma_pos",
    "Verif.gamma_neg_sign"
   ],
   "note": ""
  },
  {
   "property": "C13",
   "status": "proved",
   "theorems": [
    "Verif.gamma_functional_equation"
   ],
   "note": "Exact arithmetic (the generic code instantiated at the reals)."
  },
  {
   "property": "C14",
   "status": "proved",
   "theorems": [
    "Verif.gammpq_panic_iff",
    "Verif.gammpq_panic_nan"
   ],
   "note": ""
  },
  {
   "property": "C15",
   "status": "proved",
   "theorems": [
    "Verif.gammpq_complementary",
    "Verif.isCompl_sum"
   ],
   "note": ""
  },
  {
   "property": "C16",
   "status": "proved",
   "theorems": [
    "Verif.gammpq_at_zero",
    "Verif.gammpq_at_inf",
    "Verif.gammpq_far"
   ],
   "note": ""
  },
  {
   "property": "C17",
   "status": "partial",
   "theorems": [
    "Verif.gammpq_range_partial",
    "Verif.gammp_exceeds_one"
   ],
   "note": "False of the code: gammp(5.6e-17, 1e-20) > 1 (gammp_exceeds_one). Proved: both results are >= 0 or NaN for every valid pair, and at least one of them is in [0,1] or NaN. Assumes LibmAcc for exp and ln."
  },
  {
   "property": "C18",
   "status": "partial",
   "theorems": [
    "Verif.gammp_misses_small_a",
    "Verif.gammp_cutoff",
    "Verif.gser_series_partial",
    "Verif.gammpq_accurate_partial"
   ],
   "note": "False of the code: gammp returns 0 below a*2^-52 where the true value can be close to 1. Proved: in exact arithmetic the series branch converges to the lower incomplete gamma function with an explicit error bound; in binary64, with rounding and the Lanczos error, the result is within 1e-8 + 1e-12/a of P(a,x) for every 1e-12 <= a < 100 and every x >= 0 outside that cut-off (assumes LibmUlp). Missing: a >= 100 and a < 1e-12."
  },
  {
   "property": "C19",
   "status": "partial",
   "theorems": [
    "Verif.ln_gamma_finite_partial",
    "Verif.ln_gamma_overflows"
   ],
   "note": "False of the code for 0 < z <= 2^-54 (+inf there, proved); finite for 2^-54 < z <= 1e300 (proved). Assumes LibmSpec."
  },
  {
   "property": "C20",
   "status": "proved",
   "theorems": [
    "Verif.invgammp_panics",
    "Verif.invgammp_saturates"
   ],
   "note": ""
  },
  {
   "property": "C21",
   "status": "proved",
   "theorems": [
    "Verif.invgammp_nonneg"
   ],
   "note": ""
  },
  {
   "property": "C22",
   "status": "proved",
   "theorems": [
    "Verif.beta_panic_iff",
    "Verif.beta_symm",
    "Verif.beta_nonneg",
    "Verif.beta_number"
   ],
   "note": "beta_nonneg and beta_number assume LibmSpec (sign and monotonicity facts of the platform exp/ln). beta_number adds: a number, not NaN, for arguments between 2^-53 and 1e299."
  },
  {
   "property": "C23",
   "status": "proved",
   "theorems": [
    "Verif.betai_panic_iff",
    "Verif.betai_end_points"
   ],
   "note": ""
  },
  {
   "property": "C24",
   "status": "partial",
   "theorems": [
    "Verif.betai_large_wrong",
    "Verif.betai_reflection_partial"
   ],
   "note": "False of the code: for every 3000 < a <= 2^50, betai(a,a,1/2) is zero or NaN (betai_large_wrong, assumes LibmAcc). Proved instead: the reflection I_x(a,b) + I_(1-x)(b,a) = 1 in exact arithmetic when the calls take different branches. Accuracy for small parameters is C78."
  },
  {
   "property": "C25",
   "status": "proved",
   "theorems": [
    "Verif.invbetai_saturates",
    "Verif.invbetai_range"
   ],
   "note": ""
  },
  {
   "property": "C26",
   "status": "proved",
   "theorems": [
    "Verif.erf_panic_iff"
   ],
   "note": ""
  },
  {
   "property": "C27",
   "status": "proved",
   "theorems": [
    "Verif.erf_odd",
    "Verif.erfc_reflect"
   ],
   "note": "Equality as numbers: the sign of a zero result is not claimed."
  },
  {
   "property": "C28",
   "status": "proved",
   "theorems": [
    "Verif.erf_range"
   ],
   "note": "Assumes LibmAcc for the platform exp."
  },
  {
   "property": "C29",
   "status": "proved",
   "theorems": [
    "Verif.inverf_saturates",
    "Verif.inverfc_reflect",
    "Verif.inverf_nan"
   ],
   "note": "inverf_nan assumes LibmSpec."
  },
  {
   "property": "C30",
   "status": "proved",
   "theorems": [
    "Verif.erfcx_total"
   ],
   "note": "NaN-freeness assumes LibmSpec for exp."
  },
  {
   "property": "C31",
   "status": "proved",
   "theorems": [
    "Verif.erfcx_positive"
   ],
   "note": "Assumes LibmSpec for exp."
  },
  {
   "property": "C32",
   "status": "proved",
   "theorems": [
    "Verif.erfcx_no_jumps"
   ],
   "note": "Stronger than the property: for all neighbouring floats in [0.125, 12], not only at table boundaries; includes the rounding errors."
  },
  {
   "property": "C33",
   "status": "proved",
   "theorems": [
    "Verif.erfcx_reflect"
   ],
   "note": ""
  },
  {
   "property": "C34",
   "status": "proved",
   "theorems": [
    "Verif.erfcx_accurate",
    "Verif.erfcx_accurate_right",
    "Verif.erfcx_accurate_all",
    "Verif.erfcx_overflow"
   ],
   "note": "All rounding errors included; the negative branches assume exp is correct to one unit in the last place (LibmUlp); the true function is defined as an integral in Verif.SpecFun."
  },
  {
   "property": "C35",
   "status": "proved",
   "theorems": [
    "Verif.dawson_odd",
    "Verif.dawson_odd_panics"
   ],
   "note": "No assumption on the math library."
  },
  {
   "property": "C36",
   "status": "partial",
   "theorems": [
    "Verif.dawson_total_partial",
    "Verif.dawson_overflow",
    "Verif.dawson_nan"
   ],
   "note": "False of the code: with overflow checks dawson panics for |x| >= 7.4e18 (dawson_overflow), without them dawson(4454812037869711872) is NaN (dawson_nan). Proved instead: finite for all |x| <= 2^54 (assumes LibmAcc)."
  },
  {
   "property": "C37",
   "status": "proved",
   "theorems": [
    "Verif.faddeeva_total",
    "Verif.faddeeva_panic_iff",
    "Verif.faddeeva_total_checked"
   ],
   "note": "Index and assertion panics never occur; the only panic, with overflow checks on, is the integer overflow inside dawson (faddeeva_panic_iff). Assumes LibmSpec for exp (erfcx)."
  },
  {
   "property": "C38",
   "status": "partial",
   "theorems": [
    "Verif.faddeeva_conj_partial",
    "Verif.faddeeva_conj_fails",
    "Verif.faddeeva_asy_conj"
   ],
   "note": "False of the code in the last bits: z = 7.75+2.5i (faddeeva_conj_fails). Proved instead: equality as numbers outside the region of the asymptotic expansion (49 <= |z|^2 <= 4.8e15), and symmetry of the asymptotic expansion in exact arithmetic. Assumes LibmSpec (sin odd, cos even)."
  },
  {
   "property": "C39",
   "status": "proved",
   "theorems": [
    "Verif.faddeeva_real_axis",
    "Verif.faddeeva_imag_axis"
   ],
   "note": "Equality as numbers, for all arguments including subnormal ones. faddeeva_real_axis assumes LibmSpec."
  },
  {
   "property": "C40",
   "status": "proved",
   "theorems": [
    "Verif.faddeeva_nan"
   ],
   "note": ""
  },
  {
   "property": "C41",
   "status": "proved",
   "theorems": [
    "Verif.Jn_parity"
   ],
   "note": "Equality as numbers (the sign of a zero result is not determined), for every number x including infinities; both sides panic together."
  },
  {
   "property": "C42",
   "status": "partial",
   "theorems": [
    "Verif.In_parity_partial",
    "Verif.In_parity_fails"
   ],
   "note": "False of the code at order 1 for |x| >= 15: In(1,20) > 10^5 but |In(1,-20)| < 1 (In_parity_fails, assumes LibmAcc; the code calls exp(x) instead of exp(|x|)). Proved instead: every order except 1, and order 1 for |x| < 15."
  },
  {
   "property": "C43",
   "status": "proved",
   "theorems": [
    "Verif.Yn_recurrence",
    "Verif.Kn_recurrence",
    "Verif.Jn_recurrence",
    "Verif.Jn_recurrence_neg"
   ],
   "note": "Bit for bit for Yn, Kn at every x and for Jn at x > n+1; for x < -(n+1) up to the sign of a zero result."
  },
  {
   "property": "C44",
   "status": "proved",
   "theorems": [
    "Verif.Yn_negative_nan",
    "Verif.Kn_negative_nan"
   ],
   "note": "Assumes LibmSpec (exp NaN is NaN, ln of a negative number or NaN is NaN)."
  },
  {
   "property": "C45",
   "status": "partial",
   "theorems": [
    "Verif.bessel_nan_partial",
    "Verif.Jn_nan_fails"
   ],
   "note": "False of the code for Jn: Jn(2,NaN) is 2^-1024 (Jn_nan_fails: the rescaling step turns NaN into a number). Proved instead: In at every order, Jn at orders 0 and 1."
  },
  {
   "property": "C46",
   "status": "partial",
   "theorems": [
    "Verif.Jn_bounded_partial",
    "Verif.Jn_unbounded"
   ],
   "note": "False of the code: Jn(20,1e-20) is infinite (Jn_unbounded: rescaling by 2^-512 of an already small value returns infinity). Proved instead: |Jn(n,x)| <= 1 for n = 0, 1 and every finite x (assumes only |sin|,|cos| <= 1)."
  },
  {
   "property": "C47",
   "status": "partial",
   "theorems": [
    "Verif.Jn_panic_iff",
    "Verif.In_panic_iff",
    "Verif.bessel_order_partial",
    "Verif.bessel_order_panics"
   ],
   "note": "False of the code with overflow checks on: Jn(4294967295,1) and In(2147483648,1) panic (bessel_order_panics). Jn_panic_iff and In_panic_iff give the exact conditions; both functions return for every order up to 2*10^9 (bessel_order_partial)."
  },
  {
   "property": "C48",
   "status": "proved",
   "theorems": [
    "Verif.bessel_reject"
   ],
   "note": ""
  },
  {
   "property": "C49",
   "status": "proved",
   "theorems": [
    "Verif.besseljy_wronskian"
   ],
   "note": "In exact arithmetic with undefined values (XR). The hypothesis on jyBase says that the zero test of line 303 did not replace the denominator."
  },
  {
   "property": "C50",
   "status": "proved",
   "theorems": [
    "Verif.besselik_wronskian"
   ],
   "note": "In exact arithmetic with undefined values (XR)."
  },
  {
   "property": "C51",
   "status": "proved",
   "theorems": [
    "Verif.JnuYnu_agree",
    "Verif.InuKnu_agree"
   ],
   "note": ""
  },
  {
   "property": "C52",
   "status": "proved",
   "theorems": [
    "Verif.Cache.cache_transparent",
    "Verif.caches_transparent"
   ],
   "note": "Any history of operations, any stateful or panicking predicate in retain, any visiting order."
  },
  {
   "property": "C53",
   "status": "proved",
   "theorems": [
    "Verif.Cache.cache_holds_true_values",
    "Verif.caches_hold_true_values"
   ],
   "note": ""
  },
  {
   "property": "C54",
   "status": "proved",
   "theorems": [
    "Verif.Cache.cache_call_get",
    "Verif.Cache.cache_key_exact",
    "Verif.Cache.cache_zero_keys_differ",
    "Verif.Cache.cache_nan_keys_differ"
   ],
   "note": ""
  },
  {
   "property": "C55",
   "status": "proved",
   "theorems": [
    "Verif.Cache.cache_len",
    "Verif.Cache.cache_call_len",
    "Verif.Cache.cache_observers"
   ],
   "note": ""
  },
  {
   "property": "C56",
   "status": "proved",
   "theorems": [
    "Verif.Cache.cache_retain",
    "Verif.Cache.cache_retain_pure"
   ],
   "note": ""
  },
  {
   "property": "C57",
   "status": "proved",
   "theorems": [
    "Verif.Cache.cache_panic_unchanged"
   ],
   "note": ""
  },
  {
   "property": "C58",
   "status": "proved",
   "theorems": [
    "Verif.gcf_convergent",
    "Verif.gammq_convergent",
    "Verif.betacf_convergent",
    "Verif.betai_convergent",
    "Verif.betaFraction_unguarded"
   ],
   "note": "Exact real arithmetic; convergents are Mathlib's GenContFract.convs. For gamma no denominator is ever guarded when x >= a+1 (proved), so there is no hypothesis on guards. For beta the hypothesis Unguarded is proved for x <= 1-2^-970 and x(a+b)/(a+1) <= 1-2^-970."
  },
  {
   "property": "C59",
   "status": "proved",
   "theorems": [
    "Verif.gserLoop_exact",
    "Verif.gammp_series"
   ],
   "note": "Exact real arithmetic, any step count; gammp_series ties it to the public function for the arguments whose exponent stays inside the range in which the model's real exp is not clamped."
  },
  {
   "property": "C60",
   "status": "proved",
   "theorems": [
    "Verif.chebev_exact",
    "Verif.erfccheb_exact"
   ],
   "note": "Mathlib's Chebyshev.T is the specification. erfc's sum runs over the coefficients 1..26 of the 28: the last one, COF[27], is never used by the code."
  },
  {
   "property": "C61",
   "status": "proved",
   "theorems": [
    "Verif.polynomial_exact",
    "Verif.poly_exact",
    "Verif.rat_exact",
    "Verif.asp_exact",
    "Verif.bessel_table_lengths"
   ],
   "note": "Every coefficient list (also the empty one) and every real argument."
  },
  {
   "property": "C62",
   "status": "proved",
   "theorems": [
    "Verif.Jn_rescaling",
    "Verif.In_rescaling"
   ],
   "note": "Orders 2 <= n <= 2*10^9, every argument that reaches the downward recurrence. The sequence b is any solution of the recurrence; downward_exists shows there is one."
  },
  {
   "property": "C63",
   "status": "partial",
   "theorems": [
    "Verif.dawson_wrong",
    "Verif.dawson_accurate_partial",
    "Verif.dawson_small_pos"
   ],
   "note": "False of the code: dawson(0.5) <= -0.4 although the true value is positive (dawson_wrong, assumes LibmAcc); the loop updates its running terms before using them. Proved instead: accuracy |x|/10^7 + 2^-1074 for all |x| < 0.2 and positivity on (0, 0.2)."
  },
  {
   "property": "C64",
   "status": "partial",
   "theorems": [
    "Verif.gammpq_nan",
    "Verif.gammpq_nan_iff_partial"
   ],
   "note": "False of the code: NaN in a region with a >= 100, 0.2a <= x <= a-1. Proved: for a <= 2^52 NaN exactly in that region. Missing: a > 2^52. Assumes LibmAcc."
  },
  {
   "property": "C65",
   "status": "proved",
   "theorems": [
    "Verif.Cache.cache_eq"
   ],
   "note": ""
  },
  {
   "property": "C66",
   "status": "proved",
   "theorems": [
    "Verif.erfc_accurate_right",
    "Verif.erfc_accurate",
    "Verif.erfc_exact_accurate"
   ],
   "note": "Bit-exact model of every operation; the platform's exp is assumed to be within one unit in the last place (LibmUlp, witnessed by ideal_ulp). The relative bound for x >= 0 carries an absolute term 1e-296 for results near underflow. erfc_exact_accurate is the same statement for the code run in exact arithmetic (relative 6e-14), i.e. the approximation error of the Chebyshev coefficients alone."
  },
  {
   "property": "C67",
   "status": "proved",
   "theorems": [
    "Verif.erf_accurate"
   ],
   "note": "Same assumption as C66. The bound is absolute: erf(x) = 1 - erfc(x) loses relative accuracy near 0."
  },
  {
   "property": "C68",
   "status": "partial",
   "theorems": [
    "Verif.ln_gamma_accurate_partial",
    "Verif.ln_gamma_exact_accurate",
    "Verif.exp_ln_gamma_exact_accurate"
   ],
   "note": "ln_gamma_accurate_partial is about the bit-exact model, under LibmUlp (the platform's ln is within one unit in the last place), for 1e-12 <= z <= 1e300; ln_gamma_exact_accurate is the error of the Lanczos coefficients alone, in exact arithmetic, for every real z > 0. Missing: z < 1e-12, where z - 1.0 + 1 cancels and the result loses all accuracy (C19 shows it is infinite below 2^-54), and z > 1e300, where the product overflows."
  },
  {
   "property": "C69",
   "status": "proved",
   "theorems": [
    "Verif.gamma_accurate",
    "Verif.gamma_accurate_pos",
    "Verif.gamma_exact_accurate",
    "Verif.gamma_flush_to_zero"
   ],
   "note": "Bit-exact model, both settings of the fma target feature, no assumption about libm. gamma_exact_accurate is the approximation error of the two polynomials alone (2.9e-13 relative, exact arithmetic, -240 < z <= 171), proved against Mathlib's Real.Gamma through an explicit Stirling bound. gamma_flush_to_zero exhibits an argument below -170 where the program returns 0 for a normal gamma value, so the bound on z cannot be dropped."
  },
  {
   "property": "C70",
   "status": "proved",
   "theorems": [
    "Verif.inverfc_accurate",
    "Verif.inverf_backward",
    "Verif.inverf_accurate",
    "Verif.erfc_inverfc",
    "Verif.inverfc_erfc",
    "Verif.inverfc_exact_accurate",
    "Verif.inverf_exact_accurate",
    "Verif.erfc_bijective",
    "Verif.inverf_left_edge"
   ],
   "note": "Bit-exact model under LibmUlp (exp and ln of the platform within one unit in the last place), for 1e-280 <= p < 2; the _exact_ theorems give the error of the method alone (starting value plus two Halley steps) in exact arithmetic. inverf_backward states the accuracy of inverf for negative p as a backward error, and inverf_left_edge shows why: at the double next above -1 the code returns -100."
  },
  {
   "property": "C71",
   "status": "proved",
   "theorems": [
    "Verif.J0_accurate",
    "Verif.J1_accurate",
    "Verif.J0_exact_accurate",
    "Verif.J1_exact_accurate",
    "Verif.besselR_characterised"
   ],
   "note": "J0_accurate and J1_accurate are about binary64 and every finite x; they assume LibmTrig (sin and cos within 2^-52 of the exact values). The exact versions are the model at the reals against the power series of J0 and J1. |x| < 8: interval certificates for the rational functions. |x| >= 8: the error satisfies a linear differential equation whose residual is bounded by certificates; the initial value at 8 is computed from the series. Beyond 8 the bound in binary64 contains the unavoidable effect of rounding the argument of the cosine."
  },
  {
   "property": "C72",
   "status": "partial",
   "theorems": [
    "Verif.I0_accurate",
    "Verif.I1_accurate_partial",
    "Verif.I1_negative_wrong_f64",
    "Verif.I0_exact_accurate",
    "Verif.I1_exact_accurate_partial",
    "Verif.I1_negative_wrong",
    "Verif.I_overflows",
    "Verif.besselR_characterised"
   ],
   "note": "False of the code for order 1 and x <= -15: I1_negative_wrong (exact arithmetic, every x <= -15) and I1_negative_wrong_f64 (binary64, -680 <= x <= -15) show that the value is far too small, because the code uses exp(x) instead of exp(|x|). Proved instead: order 0 for every real x and in binary64 for |x| <= 690; order 1 for x > -15 and in binary64 for -15 < x <= 690. The binary64 theorems assume LibmUlp (exp to one unit in the last place). False of the code too for 710 <= x <= 713: In(0,x), In(0,-x) and In(1,x) are infinite although the true values are below 2^1023, because exp(x) overflows before it is divided by sqrt(x) (I_overflows; assumes ExpOver: exp is infinite from 710 on). Missing: 690 < |x| < 710 in binary64."
  },
  {
   "property": "C73",
   "status": "partial",
   "theorems": [
    "Verif.In_accurate_partial",
    "Verif.In_exact_accurate_partial",
    "Verif.In_exact_large_wrong",
    "Verif.In_large_wrong_f64",
    "Verif.In_small_infinite",
    "Verif.In_small_garbage"
   ],
   "note": "False of the code in two regions. Large x: the starting order of the recurrence depends on n only, so for every x >= 690 the value for order 3 is at least 1.9 percent too large and even exceeds I0(x) (In_exact_large_wrong, In_large_wrong_f64). Tiny values: In(20,1e-20) is infinite (In_small_infinite) and In(20,5e-154) is above 6 (In_small_garbage), although both are practically zero. Proved instead: relative accuracy for 2 <= n <= 2*10^9 and |x| at most the starting order minus 20, in exact arithmetic and in binary64 (there for 2^-400 <= |x| <= 690 and In/I0 >= 2^-990; assumes LibmUlp)."
  },
  {
   "property": "C74",
   "status": "partial",
   "theorems": [
    "Verif.Jn_exact_upward",
    "Verif.Jn_upward_accurate",
    "Verif.Jn_exact_downward",
    "Verif.Jn_small_infinite",
    "Verif.Jn_small_garbage"
   ],
   "note": "False of the code in binary64 where the value underflows: Jn(100,0.01) is infinite (Jn_small_infinite) and Jn(5,1e-100) is above 2^400 (Jn_small_garbage), because the rescaling helper returns infinity on underflow. Proved instead: for |x| > n in exact arithmetic and in binary64 (the latter under LibmTrig, with the explicit amplification factor rho = (|x|+1)/(|x|-n+1) and n*rho <= 2^45, which rho_small shows for every n <= 4*10^6); for |x| <= n in exact arithmetic, relative error 2.1e-13 for every 2 <= n <= 2*10^9. Missing: the rounding errors of the downward recurrence in binary64."
  },
  {
   "property": "C75",
   "status": "partial",
   "theorems": [
    "Verif.Kn_exact_accurate",
    "Verif.Kn_accurate_partial",
    "Verif.Kn_underflows"
   ],
   "note": "Exact arithmetic: every order and every x > 0, no restriction. Binary64: every order n < 2^32, every x between 2^-960 and 680 whose value K_n(x) is at most 2^1000 (assumes LibmUlp: exp and ln to one unit in the last place). False of the code in binary64 for x >= 750: Kn(n,x) is zero for every order, because exp(-x) underflows and both starting values are zero, although K_n(x) is at least 1 for n >= 4000, x <= 1000 (Kn_underflows, assumes LibmAcc). Missing in binary64: 680 < x < 750, where exp(-x) nears and then enters the subnormal range, and values at the edge of overflow."
  },
  {
   "property": "C76",
   "status": "partial",
   "theorems": [
    "Verif.gammpq_accurate_partial"
   ],
   "note": "Proved in binary64 for 1e-12 <= a < 100 and every finite x >= 0, except 0 < x < a*2^-52 with a < 1 where the code is wrong (gammp_cutoff): series, continued fraction, both cut-offs and the complement. Assumes LibmUlp (exp and ln to one unit in the last place). Missing: a >= 100 (quadrature, which returns NaN for x <= a-1, see C64) and a < 1e-12."
  },
  {
   "property": "C77",
   "status": "partial",
   "theorems": [
    "Verif.beta_exact_accurate",
    "Verif.beta_accurate_partial",
    "Verif.beta_accurate_wide_partial",
    "Verif.beta_overflows"
   ],
   "note": "Exact arithmetic: every z, w > 0, no restriction. Binary64 (assumes LibmUlp: exp and ln to one unit in the last place): 1.6e-8 + 1.1e-12(1/z+1/w), relative, for 1e-5 <= z, w <= 1000 (beta_accurate_partial); with the further term 3.2e-13 (z+w+7) ln(z+w+7), forced by rounding logarithms of that size, for 1e-11 <= z, w <= 1e8 (beta_accurate_wide_partial). False of the code for z <= 2^-54 (or w, by the symmetry C22): beta returns infinity for every 1e-15 <= w <= 1e200 although the true value is about 1/z, exactly 1/z at w = 1 (beta_overflows). Missing in binary64: arguments between 2^-54 and 1e-11, and above 1e8."
  },
  {
   "property": "C78",
   "status": "partial",
   "theorems": [
    "Verif.betai_exact_accurate_partial",
    "Verif.betai_accurate_small_b_partial",
    "Verif.betai_accurate_small_a_partial",
    "Verif.betai_accurate_unit_partial",
    "Verif.betai_above_one",
    "Verif.betai_wrong_branch",
    "Verif.betai_near_one_wrong"
   ],
   "note": "False of the code. The branch point is (a+1)/(a+2b) where the continued fraction needs (a+1)/(a+b+2): betai(200,200,23/64) is above 3/2 (betai_above_one), betai(1000,1000,3/8) is above 0.99 where the true value is about 3e-30 (betai_wrong_branch), both in binary64 under LibmUlp. For b <= 1/2 the direct fraction is used up to x = 1 and 9999 steps are not enough: betai(1/2,1/2,x) <= 0.01 for every x from 1-1e-14 to 1-1e-20 where the true value is above 0.99 (betai_near_one_wrong, exact arithmetic). Proved instead, in exact arithmetic for 0 < a, b <= 500: error at most 2e-8 below the branch point (x <= 0.999), and above it when a <= 1 or 1-x is below the mirrored branch point. Proved in binary64, under LibmUlp, when the fraction evaluated has second parameter at most one: b <= 1/2, a <= 1000, x <= 0.999 with relative error 2.3e-8 + 1.3e-10/(1-x) + 1.1e-12(1/a+1/b) (betai_accurate_small_b_partial; Student's distribution is b = 1/2); a <= 1, b <= 1000 above the branch point (betai_accurate_small_a_partial); a, b <= 1, 0.001 <= x <= 0.999 (betai_accurate_unit_partial). Missing: rounding errors of the fraction when both parameters exceed one, parameters above 500 (exact) or 1000."
  },
  {
   "property": "C79",
   "status": "proved",
   "theorems": [
    "Verif.Y0_exact",
    "Verif.Y1_exact",
    "Verif.Y0_accurate",
    "Verif.Y1_accurate"
   ],
   "note": "Exact arithmetic: every x > 0. Binary64: every finite x > 0 for order 0, every finite x >= 1e-300 for order 1, under LibmTrig (assumptions on sin, cos and ln met by idealLibm). The function compared with is the series DLMF 10.8.1 (SpecBesselY)."
  },
  {
   "property": "C80",
   "status": "partial",
   "theorems": [
    "Verif.Yn_exact",
    "Verif.Yn_accurate_small",
    "Verif.Yn_accurate_mid",
    "Verif.Yn_accurate_right"
   ],
   "note": "Exact arithmetic: every order n >= 2 and every x > 0. Binary64: 1e-280 <= x <= 7e6 with the order limited as stated and no value of the recurrence near overflow. Missing in binary64: x > 7e6, very large orders (above 10^6 for x < 8; n(n + 5.4(x+1)sqrt(x)) > 10^14 for 8 <= x < n), x < 1e-280 (where Y_n itself overflows for n >= 2)."
  },
  {
   "property": "C81",
   "status": "partial",
   "theorems": [
    "Verif.invgammp_panics_large",
    "Verif.invgammp_exact_returns_partial"
   ],
   "note": "False of the code: under LibmAcc, for every 100 <= a <= 2^52 and every 1e-10 <= p <= 0.45 the call panics (invgammp_panics_large): the first guess falls in the region where gammp is NaN, the next iterate is NaN and gammp asserts on it. What holds: in exact arithmetic the call returns a positive number for every 0 < a < 100 and 0 < p < 1. Missing: the distance to the true quantile, and binary64 for a < 100."
  },
  {
   "property": "C82",
   "status": "partial",
   "theorems": [
    "Verif.invbetai_exact_returns_partial"
   ],
   "note": "Proved in exact arithmetic for all a, b > 0: the first guess lies in (0,1) in both branches and the safeguarded step keeps every iterate there, so betai never panics. Missing: binary64, where a density that underflows makes an iterate NaN. The range of whatever is returned in binary64 is C25."
  },
  {
   "property": "C83",
   "status": "partial",
   "theorems": [
    "Verif.faddeeva_wrong",
    "Verif.faddeeva_near_imag_wrong",
    "Verif.faddeeva_disk_accurate",
    "Verif.faddeeva_far_accurate",
    "Verif.faddeeva_lower_accurate",
    "Verif.faddeeva_near_imag_accurate",
    "Verif.faddeeva_near_imag_lower",
    "Verif.faddeeva_imag_accurate",
    "Verif.faddeeva_real_re",
    "Verif.faddeeva_real_im"
   ],
   "note": "False of the code on the real axis: Im faddeeva(0.5,0) <= -1/4 where Im w(0.5) is positive (faddeeva_wrong, inherited from dawson, C63); and false next to the imaginary axis: Im faddeeva(1e22, 7.3e32) < -2e6 where |w| <= 1e-32, by cancellation (faddeeva_near_imag_wrong, no assumption on libm). Proved instead, in binary64: the imaginary axis for y >= -26.6, y != 0 (relative 1e-13, LibmUlp); on the real axis the real part for 0 < |x| <= 26 (relative 2e-13, LibmUlp) and the imaginary part for 0 < |x| < 0.2; off the axes, every finite z with |z| <= 0.23 whose coordinates differ by a factor of at most 9e7 (both components within 1e-14, no assumption on libm; faddeeva_disk_accurate covers the three Maclaurin polynomials), and every z in the upper half-plane with |z|^2 >= 49.01, coordinates up to 1e150 and again within a factor 9e7 of each other (error 2e-14 |w(z)|, no assumption on libm; faddeeva_far_accurate covers the 20-term, 12-term and 4-term expansions and the leading term used beyond |z|^2 = 4.8e15). In the lower half-plane, for 49.01 <= |z|^2 <= 1e13 and y^2 - x^2 <= 600 under LibmTrig, the error is at most 1e-14 (1/|z| + |z|^2 |exp(-z^2)|), the second term being the condition of exp(-z^2) (faddeeva_lower_accurate). Next to the positive imaginary axis, for 1e-180 <= y <= 1000 and 0 < |x| <= 0.99e-8 y, the error is at most 1.2e-13 |w(z)| (LibmUlp, faddeeva_near_imag_accurate); for -3 <= y <= -1e-180 and 0 < |x| <= 0.99e-8 |y| it is at most 3e-13 |w(z)| (faddeeva_near_imag_lower). The function compared with is the definition by a complex line integral (SpecFaddeeva). Missing: near the real axis; off the axes, 0.0529 < |z|^2 < 49.01 and the lower half-plane beyond that; and the real axis beyond."
  }
 ]
}