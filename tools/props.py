#!/usr/bin/env python3
"""Writes /verif/properties.jsonl (the list of properties)."""
import json
P=[]
def p(title, statement, quantifier, why, *anchors):
    P.append(dict(id="C%02d"%(len(P)+1), title=title, statement=statement, quantifier=quantifier, why_tests_cant=why, anchors=list(anchors)))
U="src/utils.rs:"; G="src/gamma.rs:"; B="src/beta.rs:"; E="src/error.rs:"; D="src/dawson.rs:"; F="src/faddeeva.rs:"; S="src/bessel.rs:"
ALL="There are 2^64 inputs; a test samples a handful."
p("frexp decomposes exactly",
  "frexp(x) returns (m, e) with 0.5 <= |m| < 1, x = m*2^e exactly and m of the sign of x, for every finite non-zero x; frexp(+-0) = (0, 0).",
  "every finite f64 x", ALL+" The exceptional inputs (subnormals) are exactly the ones tests skip.", U+"frexp")
p("ldexp scales by a power of two",
  "ldexp(x, k) is x*2^k exactly whenever x and x*2^k are both normal numbers; it returns an infinity only when |x*2^k| really overflows.",
  "every f64 x and every i32 k", "2^96 argument pairs; range edges are off-by-one prone.", U+"ldexp")
p("ldexp inverts frexp", "ldexp(m, e) = x bit for bit when (m, e) = frexp(x), for every x other than -0 (which becomes +0).",
  "every f64 x", ALL, U+"frexp", U+"ldexp")
p("sign transfers a sign", "sign(a, b) has the magnitude of a and the sign bit of b, for every a and b including zeros, infinities and NaN.",
  "every pair of f64", "2^128 argument pairs.", U+"sign")
p("factorial's algorithm is exact", "In exact arithmetic the blocked product evaluated by factorial(n) equals n!, for every n <= usize::MAX - 60.",
  "every usize n up to usize::MAX - 60", "Unbounded n; the block length depends on n, so every n exercises a different split.", U+"factorial", U+"rising_factorial")
p("factorial accuracy and overflow", "factorial(n) is within relative error 2^-50 of n! for every n <= 170, is exactly n! for n <= 22, and is +infinity for every n >= 171.",
  "every usize n up to usize::MAX - 60", "The tail n >= 171 is infinite for practical purposes; the loop over it cannot be run.", U+"factorial")
p("factorial is monotone and at least one", "1 <= factorial(n) <= factorial(n+1) for every n, and the result is never NaN.",
  "every usize n", "Different n use different block lengths and thus different rounding sequences.", U+"factorial")
p("gamma's special values follow ISO C 99", "gamma(+-0) = +-infinity; gamma(negative integer), gamma(-infinity) and gamma(NaN) are NaN; gamma(x) = +infinity for every x > 171.6243769563027.",
  "every f64 in the listed classes", "Each class holds up to 2^62 inputs.", G+"gamma")
p("gamma is NaN only where documented", "gamma(z) is NaN if and only if z is NaN, -infinity or a negative integer.",
  "every f64 z", ALL, G+"gamma")
p("gamma extends the factorial", "gamma(k) equals factorial(k-1) bit for bit for every integer 1 <= k <= 171, hence has relative error at most 2^-50.",
  "every integer k in 1..=171", "Ties two entry points together for the full range.", G+"gamma", U+"factorial")
p("gamma terminates quickly", "gamma(z) finishes after at most 250 loop iterations for every z.",
  "every f64 z", "Loops run on the floating-point argument; a test cannot exclude one input that makes the loop spin.", G+"gamma")
p("gamma has the right sign", "gamma(z) > 0 for 0 < z; for a negative non-integer z the result is zero or has sign (-1)^ceil(|z|).",
  "every f64 z that is not a pole", ALL, G+"gamma")
p("gamma obeys the functional equation in exact arithmetic", "Evaluated in exact real arithmetic, gamma(z+1) = z*gamma(z) for every z in -240 < z <= 170 that is not a pole and not one of 1.5, 2.5, 3.5 (where two approximants meet).",
  "every real z in range", "A continuum of inputs.", G+"gamma")
p("gammp and gammq reject exactly the bad arguments", "gammp(a,x) and gammq(a,x) panic if and only if not (x >= 0 and a > 0), in particular for any NaN argument.",
  "every pair of f64", "2^128 pairs.", G+"gammp", G+"gammq")
p("gammp and gammq are complementary", "For all valid arguments one of the two results is the other's complement 1-v (rounded, clamped to [0,1]); when both lie in [0,1] they add up to 1 within 2^-53.",
  "every valid (a, x)", "Regime boundaries depend on both arguments; every pair must pick the same regime in both functions.", G+"gammp", G+"gammq")
p("incomplete gamma end points", "gammp(a,0)=0, gammq(a,0)=1, and for finite a gammp(a,+inf)=1, gammq(a,+inf)=0.",
  "every a > 0", ALL, G+"gammp", G+"gammq")
p("incomplete gamma range", "gammp and gammq return a value in [0,1] or NaN for every valid argument pair.",
  "every valid (a, x)", "2^126 pairs.", G+"gammp", G+"gammq", G+"gser", G+"gcf")
p("gammp tends to the true P(a,x) for small arguments", "gammp(a,x) approximates P(a,x) = gamma(a,x)/Gamma(a) for every valid pair, in particular when both a and x are tiny.",
  "every valid (a, x)", "A continuum; the short cut for x < a*EPSILON is never visited by table tests.", G+"gammp")
p("ln_gamma is finite on the positive axis", "ln_gamma(z) is neither NaN nor infinite for every positive z with z <= 1e300.",
  "every positive f64 up to 1e300", ALL, G+"ln_gamma")
p("invgammp: saturation and panics", "invgammp(p,a) panics whenever a <= 0 or a is NaN; returns 0 for p <= 0 and max(100, a+100*sqrt(a)) for p >= 1.",
  "every p and a", "2^128 pairs.", G+"invgammp")
p("invgammp never returns a negative quantile", "Whenever invgammp(p,a) returns, the result is >= 0 or NaN.",
  "every p and a", "The safeguarded Halley iteration must preserve the sign for every iterate.", G+"invgammp")
p("beta: symmetry, sign and panics", "beta(z,w) panics iff not (z > 0 and w > 0); otherwise beta(z,w) = beta(w,z) bit for bit and the result is >= 0 or NaN.",
  "every pair of f64", "2^128 pairs.", B+"beta")
p("betai: panics and end points", "betai(a,b,x) panics iff not (a > 0, b > 0 and 0 <= x <= 1); betai(a,b,0)=0 and betai(a,b,1)=1.",
  "every triple of f64", "2^192 triples.", B+"betai")
p("betai approximates I_x(a,b) for large parameters", "betai(a,a,1/2) is 1/2 up to rounding for every a > 0, including a > 3000.",
  "every a > 0", "Only a few parameter pairs can be tabulated.", B+"betai", B+"betaiapprox")
p("invbetai: saturation and range", "invbetai(p,a,b) is 0 for p <= 0 and 1 for p >= 1 (any a, b); whenever it returns, the result is in [0,1] or NaN.",
  "every triple of f64", "2^192 triples and an iteration whose every iterate must stay in range.", B+"invbetai")
p("erf and erfc panic exactly on NaN", "erf(x) and erfc(x) panic if and only if x is NaN.",
  "every f64 x", ALL, E+"erf", E+"erfc", E+"erfccheb")
p("erf is odd, erfc is reflected", "As numbers (a zero result may carry either sign), erf(-x) = -erf(x) for every non-zero x, and erfc(-x) = 2 - erfc(x) (rounded) for x > 0; erf(x) = 1 - erfc(x) (rounded) for x >= 0.",
  "every non-NaN f64 x", ALL, E+"erf", E+"erfc")
p("erf and erfc ranges", "-1 <= erf(x) <= 1 and 0 <= erfc(x) <= 2 for every non-NaN x, and neither is NaN.",
  "every non-NaN f64 x", ALL+" One rounding error anywhere could leave the interval.", E+"erf", E+"erfc")
p("inverfc and inverf: saturation and symmetry", "inverfc(p) = -100 for p >= 2 and 100 for p <= 0; inverf(p) = 100 for p >= 1 and -100 for p <= -1; inverfc(p) = -inverfc(2-p) bit for bit for 1 < p < 2; both panic on NaN.",
  "every f64 p", ALL, E+"inverfc", E+"inverf")
p("erfcx is total", "erfcx(x) never panics (all table look-ups are in bounds) and is NaN if and only if x is NaN.",
  "every f64 x", ALL+" The table index is computed from the bits of x.", E+"erfcx", E+"cheb_interpolant")
p("erfcx is positive", "erfcx(x) > 0 for every non-NaN x (x < +inf), and erfcx(x) <= 1 for x >= 0.125.",
  "every non-NaN f64 x", ALL+" 448 table rows of 10 coefficients each.", E+"erfcx")
p("erfcx has no jumps at table seams", "For neighbouring floats in [0.125, 12], in particular on the two sides of every boundary between table intervals, the values of erfcx differ by at most 2^-49.",
  "every interior boundary of the table", "447 seams, each between two rows of coefficients.", E+"cheb_interpolant")
p("erfcx reflection and overflow", "For -6.1 <= x <= -0.125, erfcx(x) is 2*exp(x*x) - erfcx(-x) (rounded); erfcx(x) = +inf for x < -26.7.",
  "every f64 x in range", ALL, E+"erfcx")
p("erfcx is accurate", "erfcx(x) is within 1e-13 (relative) of exp(x^2)*erfc(x) for every finite x >= -26.6, and within 1e-14 for x > -0.125 (up to half the smallest positive number when the result is subnormal); below -26.7 it is +inf and the true value exceeds the largest finite number.",
  "every f64 x in range", ALL, E+"erfcx")
p("dawson is odd", "dawson(-x) = -dawson(x) for every x.", "every non-NaN f64 x", ALL, D+"dawson")
p("dawson is total", "dawson(x) neither panics nor returns NaN, for every finite x.",
  "every finite f64 x", ALL+" The failing inputs are beyond 7e18.", D+"dawson")
p("faddeeva never panics", "faddeeva(re, im) never panics with an out-of-bounds index or a failed assertion, for any arguments.",
  "every pair of f64", "2^128 pairs; each must map to a covered tile of a 50x50 table.", F+"faddeeva")
p("faddeeva conjugation symmetry", "faddeeva(-re, im) is the complex conjugate of faddeeva(re, im).",
  "every pair of f64", "2^128 pairs over a dozen branches.", F+"faddeeva")
p("faddeeva on the axes", "faddeeva(x, 0) = (exp(-x^2), 2/sqrt(pi)*dawson(x)) for 0 < |x| <= 27, and faddeeva(0, y) = (erfcx(y), 0) for y != 0.",
  "every f64 on the axes", ALL, F+"faddeeva")
p("faddeeva propagates NaN", "If re or im is NaN, both components of faddeeva(re, im) are NaN.",
  "every pair of f64 with a NaN", "2^117 pairs.", F+"faddeeva")
p("Jn parity", "Jn(n, -x) and (-1)^n Jn(n, x) are equal numbers (or both NaN, or both calls panic) for every n and every x that is not NaN.", "every u32 n and non-NaN f64 x", "2^96 pairs.", S+"Jn")
p("In parity", "In(n, -x) and (-1)^n In(n, x) are equal numbers (or both NaN, or both calls panic) for every n and every x that is not NaN.", "every u32 n and non-NaN f64 x", "2^96 pairs.", S+"In")
p("three-term recurrences", "Yn(n+1,x) = n*(2/x)*Yn(n,x) - Yn(n-1,x) and Kn(n+1,x) = n*(2/x)*Kn(n,x) + Kn(n-1,x) hold bit for bit (evaluated in this order) for every n >= 1 and x; so does Jn for x > n+1, and for x < -(n+1) up to the sign of a zero.",
  "every u32 n and f64 x", "Unbounded order n.", S+"Yn", S+"Kn", S+"Jn")
p("second-kind functions reject the negative axis", "Yn(n,x) and Kn(n,x) are NaN for every x < 0 and every n, and for NaN x.",
  "every u32 n and x < 0 or NaN", "2^95 pairs.", S+"Yn", S+"Kn")
p("integer-order Bessel functions propagate NaN", "Jn(n,NaN) and In(n,NaN) are NaN for every n.",
  "every u32 n", "2^32 orders.", S+"Jn", S+"In")
p("Jn is bounded", "|Jn(n,x)| <= 1 for every n and every finite x.", "every u32 n and finite f64 x", "2^96 pairs; the failures sit at tiny x.", S+"Jn")
p("Jn and In accept every order", "Jn(n,x) and In(n,x) do not panic for any order n and any x.", "every u32 n and f64 x", "2^96 pairs; the failures sit at orders near 2^31 and 2^32.", S+"Jn", S+"In")
p("besseljy and besselik reject bad arguments", "besseljy(nu,x) and besselik(nu,x) panic for every x <= 0, every nu < 0, and every NaN argument.",
  "every pair of f64", "2^128 pairs.", S+"besseljy", S+"besselik")
p("Wronskian of besseljy", "In exact arithmetic the four results (J,Y,J',Y') of besseljy(nu,x) satisfy J*Y' - J'*Y = 2/(pi*x) whenever the call returns, no division by zero occurs, and no zero denominator had to be replaced by EPS.",
  "every real nu >= 0 and x > 0", "A continuum of inputs and unbounded recurrence length.", S+"besseljy")
p("Wronskian of besselik", "In exact arithmetic the four results (I,K,I',K') of besselik(nu,x) satisfy I*K' - I'*K = -1/x whenever the call returns and no division by zero occurs.",
  "every real nu >= 0 and x > 0", "A continuum of inputs and unbounded recurrence length.", S+"besselik")
p("value-only wrappers agree with the full functions", "Jnu_Ynu(nu,x) and Inu_Knu(nu,x) are the first two components of besseljy(nu,x) and besselik(nu,x), and panic exactly when those panic.",
  "every pair of f64", "2^128 pairs.", S+"Jnu_Ynu", S+"Inu_Knu")
p("caches are transparent", "After any sequence of cache operations, a cached call returns exactly what the uncached function returns for the same arguments, and panics exactly when it panics.",
  "every history of cache operations, for all four cache types", "Histories are unbounded.", S+"CachedBesselJY", S+"CachedBesselIK", S+"CachedJnuYnu", S+"CachedInuKnu")
p("caches hold only true values", "After any history, get(nu,x) = Some(v) implies v is the uncached function's result at (nu,x).",
  "every history of cache operations", "Histories are unbounded.", S+"CachedBesselJY", S+"get")
p("cache keys are exact bit patterns", "A cached value is found only under the exact bits of nu and x with which it was computed: +0.0 and -0.0, or two NaNs with different bits, are different keys.",
  "every history and every pair of keys", "Histories and keys are unbounded.", S+"contains", S+"get")
p("cache size accounting", "len() is the number of distinct argument pairs held; a cached call increases it by one exactly when the pair was absent and the call returned; is_empty() iff len() = 0; contains(nu,x) iff get(nu,x) is Some; clear() empties; reserve and shrink_to_fit change nothing observable.",
  "every history of cache operations", "Histories are unbounded.", S+"len", S+"is_empty", S+"clear", S+"reserve", S+"shrink_to_fit")
p("retain keeps exactly the selected entries", "retain(f) visits each entry exactly once with its own arguments and value, and afterwards exactly the entries for which f returned true remain, unchanged, whatever the visiting order.",
  "every cache, predicate and visiting order", "The visiting order is unspecified.", S+"retain")
p("a panicking cached call leaves the cache unchanged", "If a cached call panics, the cache's observable contents are as before the call.",
  "every history and argument pair", "Histories are unbounded; the crash point is inside the computation.", S+"CachedBesselJY", S+"CachedBesselIK")
p("continued fractions are evaluated correctly", "In exact arithmetic, as long as no denominator is replaced by the underflow guard, the continued-fraction evaluation of gammq (gammp) and betai after any number of steps is a convergent of the classical continued fraction: exactly for the incomplete beta function; for the incomplete gamma function up to the explicit perturbation 2^-970*(1 - (x+1-a)*f) that comes from starting the recurrence at 1/FPMIN instead of infinity.",
  "every number of steps and all real arguments", "Unbounded number of steps.", G+"gcf", B+"betacf")
p("the incomplete-gamma series is evaluated correctly", "In exact arithmetic the series accumulated by gammp's small-x branch after n steps is the n-th partial sum of sum_k x^k/(a(a+1)...(a+k)).",
  "every n and all real a > 0, x", "Unbounded number of steps.", G+"gser")
p("Chebyshev sums are evaluated correctly", "In exact arithmetic the Clenshaw evaluations used by erfc and by the fractional Bessel functions equal the corresponding sums of c_j T_j.",
  "every real argument and every coefficient list", "A continuum of inputs.", E+"erfccheb", S+"chebev")
p("Horner evaluation is exact", "In exact arithmetic the polynomial evaluators return sum c_i x^i for every coefficient list.",
  "every coefficient list and argument", "Unbounded list length.", U+"polynomial", S+"poly", S+"rat", S+"asp")
p("rescaling does not change Jn and In", "In exact arithmetic the result of the downward recurrence is the same whether or not (and however often) the intermediate values are rescaled: it is the normalised solution of the three-term recurrence started at the documented starting order.",
  "every order, argument and rescaling pattern", "The rescaling pattern depends on the magnitude of intermediate values.", S+"Jn", S+"In")
p("dawson approximates Dawson's integral", "dawson(x) approximates exp(-x^2) * integral_0^x exp(t^2) dt; in particular it is positive for every x > 0.",
  "every f64 x", "A continuum of inputs.", D+"dawson")
p("gammp and gammq are never NaN", "gammp(a,x) and gammq(a,x) return a number, not NaN, for every finite a > 0 and x >= 0.",
  "every valid finite pair", "2^126 pairs; the failing ones need a >= 100 and x just below a.", G+"gammp", G+"gammq", G+"gammpapprox")
p("cache equality is equality of contents", "Two caches compare equal exactly when they hold the same argument bits and the stored values compare equal with ==.",
  "every pair of reachable caches", "Histories are unbounded.", S+"CachedBesselJY")
p("erfc is accurate", "For every finite x, erfc(x) is within 1e-13 of the complementary error function, and for x >= 0 its relative error is at most 3e-13 (as long as the value is above 1e-283).",
  "every finite f64 x", "2^64 arguments; a wrong digit in one of 28 coefficients shifts the result everywhere by less than a typical test tolerance.", E+"erfc", E+"erfccheb")
p("erf is accurate", "For every finite x, erf(x) is within 1e-13 of the error function.",
  "every finite f64 x", "2^64 arguments.", E+"erf")
p("ln_gamma is accurate", "For every positive z, ln_gamma(z) is within 4e-9 of the logarithm of the gamma function, up to rounding errors proportional to the size of the intermediate results.",
  "every finite f64 z > 0", "2^63 arguments.", G+"ln_gamma")
p("gamma is accurate", "For every z > -170 that is not a pole and whose gamma value does not overflow, gamma(z) is finite and its relative error is at most 6e-13. (Nearer to -171 and beyond, the running product can overflow first: gamma(-170.99999999999997) is 0 although the true value is about 1e-296.)",
  "every f64 z with -170 < z <= 171.6243769563027", "2^64 arguments; a wrong digit in one of 24 coefficients or one iteration too many shows only on part of the range.", G+"gamma")
p("inverfc and inverf invert erfc and erf", "For every 1e-280 <= p < 2, inverfc(p) is within 2e-11 of the point where the complementary error function equals p; for every 0 <= p < 1, inverf(p) is within 2.1e-11 of the point where the error function equals p; erfc(inverfc(p)) gives p back within 3e-11 and inverfc(erfc(x)) gives x back within 2.5e-11 for 0 <= x <= 25. (For negative p, inverf first rounds 1 - p: its result belongs to a number within 2^-52 of p, and at the double next above -1 it is -100.)",
  "every f64 p with 1e-280 <= p < 2, every f64 p with -1 + 2^-52 <= p < 1, every f64 x in [0, 25]", "2^63 arguments; a wrong digit in the starting value or a wrong sign in the Halley step leaves an error that depends on p.", E+"inverfc", E+"inverf")
p("Jn of order 0 and 1 is accurate", "Jn(0,x) and Jn(1,x) approximate the Bessel functions J0 and J1 with an absolute error of at most 5e-13 in exact arithmetic (1.1e-14 for |x| < 8, 1.301e-12/sqrt|x| beyond); in binary64 at most 2.01e-14 for |x| < 8 and (1.31e-12 + |x|/2^53)/sqrt|x| beyond.",
  "every real (f64) x", "A continuum of inputs; a wrong digit in one of 48 coefficients or a wrong matching point shows only on part of the line and below a typical tolerance.", S+"Jn", S+"j0", S+"j1")
p("In of order 0 and 1 is accurate", "In(0,x) and In(1,x) approximate the modified Bessel functions I0 and I1 with a relative error of at most 3e-13 in exact arithmetic, plus the rounding errors of the evaluation.",
  "every real (f64) x", "A continuum of inputs; the defect for order 1 below -15 is invisible on positive arguments.", S+"In", S+"i0", S+"i1")
p("In of general order is accurate", "For n >= 2, In(n,x) approximates the modified Bessel function of the first kind with a small relative error (7e-13 plus a few units in the last place per step of the recurrence), and is finite wherever the exact value is representable.",
  "every u32 n >= 2 and every f64 x", "2^96 pairs; the failures sit at large x for small n and at tiny x for large n.", S+"In")
p("Jn of general order is accurate", "For n >= 2, Jn(n,x) approximates the Bessel function of the first kind: with a small absolute error for |x| > n (upward recurrence) and a relative error of 2.1e-13 plus rounding for |x| <= n (downward recurrence). (Values that would underflow come out infinite or as garbage: Jn(100,0.01) is infinite.)",
  "every u32 n >= 2 and every f64 x", "2^96 pairs; the length of the recurrence and its error growth depend on both arguments.", S+"Jn")
p("Kn is accurate", "For every order n and x > 0, Kn(n,x) approximates the modified Bessel function of the second kind: relative error at most 9e-13 in exact arithmetic, and 1e-12 plus 5n half units in the last place in binary64.",
  "every u32 n and every real (f64) x > 0", "2^95 pairs; a wrong digit in one of 44 coefficients shows only on part of the range and below a typical tolerance.", S+"Kn", S+"k0", S+"k1")
p("gammp and gammq are accurate", "For every order a and x >= 0, gammp(a,x) and gammq(a,x) are finite and within 1e-8 + 1e-12/a of the regularised incomplete gamma functions P(a,x) and Q(a,x). (Exceptions: below a*EPSILON for a < 1 the code returns 0 and 1; for a >= 100 the result can be NaN.)",
  "every f64 pair a > 0, x >= 0", "2^126 pairs; four different algorithms and three cut-offs meet along curves in the plane, and the two loops stop after a data-dependent number of up to 10000 rounded steps.", G+"gammp", G+"gammq", G+"gser", G+"gcf")
p("beta is accurate", "For all z, w > 0, beta(z,w) approximates Euler's integral of t^(z-1) (1-t)^(w-1) over [0,1] with a relative error of at most 1.21e-8 in exact arithmetic, and 2.5e-8 + 2e-12 (1/z + 1/w) + 3.2e-13 (z+w+7) ln(z+w+7) in binary64. (For z <= 2^-54 the code returns infinity although the true value is about 1/z.)",
  "every pair of positive reals (f64)", "2^126 pairs; the three logarithms cancel by an amount that depends on both arguments.", B+"beta")
p("betai is accurate", "For all a, b > 0 and 0 <= x <= 1, betai(a,b,x) is within 2e-8 of the regularised incomplete beta function I_x(a,b); in particular it is a number between 0 and 1 up to that error.",
  "every f64 triple a > 0, b > 0, 0 <= x <= 1", "2^189 triples; the choice between the two continued fractions is made along a curve, and the loop stops after a data-dependent number of up to 9999 steps.", B+"betai", B+"betacf")
p("Yn of order 0 and 1 is accurate", "For every x > 0, Yn(0,x) and Yn(1,x) approximate the Bessel functions of the second kind Y0 and Y1: in exact arithmetic the error is at most 1.1e-15 + 6.4e-15|ln x| (order 0) and 2e-17 + x(5.3e-16 + 8.1e-16|ln x|) (order 1) for x < 8, and 1.301e-12/sqrt(x) beyond; in binary64 at most 2.9e-14 + 1.45e-14|ln x| (order 0) and 3.6e-14 + 1.45e-14|ln x| + 7e-16/x (order 1, from 1e-300 on) for x < 8, and (1.31e-12 + x/2^53)/sqrt(x) beyond.",
  "every real (f64) x > 0 (x >= 1e-300 for order 1 in binary64: the value itself is near overflow below)", "A continuum of inputs; a wrong digit in one of 66 coefficients or a wrong matching point shows only on part of the line and below a typical tolerance.", S+"Yn", S+"y0", S+"y1")
p("Yn of general order is accurate", "For every n >= 2 and x > 0, Yn(n,x) approximates the Bessel function of the second kind Y_n(x): in exact arithmetic the error is at most 2.4e-14 (1+x)(1+|ln x|) (|Y_n(x)| + (1+|ln x|) |J_n(x)|) for x < 8, and 2.5e-12 (|Y_n(x)| + |J_n(x)|) beyond; in binary64, as long as nothing comes near overflow, the relative error is at most 8e-13 + 160 n(n+5)/2^53 for x <= 1, and for larger x the rounding errors of the recurrence add terms of the order of n^2/2^53 times |Y_n(x)| (and of x^2/2^53 times |Y_n(x)| + |J_n(x)|).",
  "every u32 n >= 2 and every real (f64) x > 0", "2^95 pairs; the length of the recurrence and the growth of errors depend on both arguments.", S+"Yn")
p("invgammp returns for every probability and shape", "For every a > 0 and every 0 < p < 1, invgammp(p,a) returns a positive number (the documentation promises the x with P(a,x) = p and a panic only for a <= 0).",
  "every f64 a > 0 and every f64 p with 0 < p < 1", "2^127 pairs; whether one of the twelve Newton-like steps leaves the domain of gammp depends on both arguments.", G+"invgammp", G+"gammp")
p("invbetai returns for every probability and shapes", "For all a, b > 0 and every 0 < p < 1, invbetai(p,a,b) returns a number strictly between 0 and 1.",
  "every f64 a, b > 0 and every f64 p with 0 < p < 1", "2^191 triples; betai panics on an iterate outside [0,1], so each of the ten steps must stay inside for every input.", B+"invbetai", B+"betai")
p("faddeeva approximates the Faddeeva function", "faddeeva(x,y) approximates the real and imaginary parts of w(x+iy) = exp(-z^2) erfc(-iz) for every z = x+iy at which w is representable.",
  "every pair of finite f64 (x, y)", "2^128 pairs and eight formulas with their seams.", F+"faddeeva", D+"dawson", E+"erfcx")
with open("/verif/properties.jsonl","w") as f:
    for x in P: f.write(json.dumps(x)+"\n")
print(len(P))
