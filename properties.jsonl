{"id": "C01", "title": "frexp decomposes exactly", "statement": "frexp(x) returns (m, e) with 0.5 <= |m| < 1, x = m*2^e exactly and m of the sign of x, for every finite non-zero x; frexp(+-0) = (0, 0).", "quantifier": "every finite f64 x", "why_tests_cant": "There are 2^64 inputs; a test samples a handful. The exceptional inputs (subnormals) are exactly the ones tests skip.", "anchors": ["src/utils.rs:frexp"]}
{"id": "C02", "title": "ldexp scales by a power of two", "statement": "ldexp(x, k) is x*2^k exactly whenever x and x*2^k are both normal numbers; it returns an infinity only when |x*2^k| really overflows.", "quantifier": "every f64 x and every i32 k", "why_tests_cant": "2^96 argument pairs; range edges are off-by-one prone.", "anchors": ["src/utils.rs:ldexp"]}
{"id": "C03", "title": "ldexp inverts frexp", "statement": "ldexp(m, e) = x bit for bit when (m, e) = frexp(x), for every x other than -0 (which becomes +0).", "quantifier": "every f64 x", "why_tests_cant": "There are 2^64 inputs; a test samples a handful.", "anchors": ["src/utils.rs:frexp", "src/utils.rs:ldexp"]}
{"id": "C04", "title": "sign transfers a sign", "statement": "sign(a, b) has the magnitude of a and the sign bit of b, for every a and b including zeros, infinities and NaN.", "quantifier": "every pair of f64", "why_tests_cant": "2^128 argument pairs.", "anchors": ["src/utils.rs:sign"]}
{"id": "C05", "title": "factorial's algorithm is exact", "statement": "In exact arithmetic the blocked product evaluated by factorial(n) equals n!, for every n <= usize::MAX - 60.", "quantifier": "every usize n up to usize::MAX - 60", "why_tests_cant": "Unbounded n; the block length depends on n, so every n exercises a different split.", "anchors": ["src/utils.rs:factorial", "src/utils.rs:rising_factorial"]}
{"id": "C06", "title": "factorial accuracy and overflow", "statement": "factorial(n) is within relative error 2^-50 of n! for every n <= 170, is exactly n! for n <= 22, and is +infinity for every n >= 171.", "quantifier": "every usize n up to usize::MAX - 60", "why_tests_cant": "The tail n >= 171 is infinite for practical purposes; the loop over it cannot be run.", "anchors": ["src/utils.rs:factorial"]}
{"id": "C07", "title": "factorial is monotone and at least one", "statement": "1 <= factorial(n) <= factorial(n+1) for every n, and the result is never NaN.", "quantifier": "every usize n", "why_tests_cant": "Different n use different block lengths and thus different rounding sequences.", "anchors": ["src/utils.rs:factorial"]}
{"id": "C08", "title": "gamma's special values follow ISO C 99", "statement": "gamma(+-0) = +-infinity; gamma(negative integer), gamma(-infinity) and gamma(NaN) are NaN; gamma(x) = +infinity for every x > 171.6243769563027.", "quantifier": "every f64 in the listed classes", "why_tests_cant": "Each class holds up to 2^62 inputs.", "anchors": ["src/gamma.rs:gamma"]}
{"id": "C09", "title": "gamma is NaN only where documented", "statement": "gamma(z) is NaN if and only if z is NaN, -infinity or a negative integer.", "quantifier": "every f64 z", "why_tests_cant": "There are 2^64 inputs; a test samples a handful.", "anchors": ["src/gamma.rs:gamma"]}
{"id": "C10", "title": "gamma extends the factorial", "statement": "gamma(k) equals factorial(k-1) bit for bit for every integer 1 <= k <= 171, hence has relative error at most 2^-50.", "quantifier": "every integer k in 1..=171", "why_tests_cant": "Ties two entry points together for the full range.", "anchors": ["src/gamma.rs:gamma", "src/utils.rs:factorial"]}
{"id": "C11", "title": "gamma terminates quickly", "statement": "gamma(z) finishes after at most 250 loop iterations for every z.", "quantifier": "every f64 z", "why_tests_cant": "Loops run on the floating-point argument; a test cannot exclude one input that makes the loop spin.", "anchors": ["src/gamma.rs:gamma"]}
{"id": "C12", "title": "gamma has the right sign", "statement": "gamma(z) > 0 for 0 < z; for a negative non-integer z the result is zero or has sign (-1)^ceil(|z|).", "quantifier": "every f64 z that is not a pole", "why_tests_cant": "There are 2^64 inputs; a test samples a handful.", "anchors": ["src/gamma.rs:gamma"]}
{"id": "C13", "title": "gamma obeys the functional equation in exact arithmetic", "statement": "Evaluated in exact real arithmetic, gamma(z+1) = z*gamma(z) for every z in -240 < z <= 170 that is not a pole and not one of 1.5, 2.5, 3.5 (where two approximants meet).", "quantifier": "every real z in range", "why_tests_cant": "A continuum of inputs.", "anchors": ["src/gamma.rs:gamma"]}
{"id": "C14", "title": "gammp and gammq reject exactly the bad arguments", "statement": "gammp(a,x) and gammq(a,x) panic if and only if not (x >= 0 and a > 0), in particular for any NaN argument.", "quantifier": "every pair of f64", "why_tests_cant": "2^128 pairs.", "anchors": ["src/gamma.rs:gammp", "src/gamma.rs:gammq"]}
{"id": "C15", "title": "gammp and gammq are complementary", "statement": "For all valid arguments one of the two results is the other's complement 1-v (rounded, clamped to [0,1]); when both lie in [0,1] they add up to 1 within 2^-53.", "quantifier": "every valid (a, x)", "why_tests_cant": "Regime boundaries depend on both arguments; every pair must pick the same regime in both functions.", "anchors": ["src/gamma.rs:gammp", "src/gamma.rs:gammq"]}
{"id": "C16", "title": "incomplete gamma end points", "statement": "gammp(a,0)=0, gammq(a,0)=1, and for finite a gammp(a,+inf)=1, gammq(a,+inf)=0.", "quantifier": "every a > 0", "why_tests_cant": "There are 2^64 inputs; a test samples a handful.", "anchors": ["src/gamma.rs:gammp", "src/gamma.rs:gammq"]}
{"id": "C17", "title": "incomplete gamma range", "statement": "gammp and gammq return a value in [0,1] or NaN for every valid argument pair.", "quantifier": "every valid (a, x)", "why_tests_cant": "2^126 pairs.", "anchors": ["src/gamma.rs:gammp", "src/gamma.rs:gammq", "src/gamma.rs:gser", "src/gamma.rs:gcf"]}
{"id": "C18", "title": "gammp tends to the true P(a,x) for small arguments", "statement": "gammp(a,x) approximates P(a,x) = gamma(a,x)/Gamma(a) for every valid pair, in particular when both a and x are tiny.", "quantifier": "every valid (a, x)", "why_tests_cant": "A continuum; the short cut for x < a*EPSILON is never visited by table tests.", "anchors": ["src/gamma.rs:gammp"]}
{"id": "C19", "title": "ln_gamma is finite on the positive axis", "statement": "ln_gamma(z) is neither NaN nor infinite for every positive z with z <= 1e300.", "quantifier": "every positive f64 up to 1e300", "why_tests_cant": "There are 2^64 inputs; a test samples a handful.", "anchors": ["src/gamma.rs:ln_gamma"]}
{"id": "C20", "title": "invgammp: saturation and panics", "statement": "invgammp(p,a) panics whenever a <= 0 or a is NaN; returns 0 for p <= 0 and max(100, a+100*sqrt(a)) for p >= 1.", "quantifier": "every p and a", "why_tests_cant": "2^128 pairs.", "anchors": ["src/gamma.rs:invgammp"]}
{"id": "C21", "title": "invgammp never returns a negative quantile", "statement": "Whenever invgammp(p,a) returns, the result is >= 0 or NaN.", "quantifier": "every p and a", "why_tests_cant": "The safeguarded Halley iteration must preserve the sign for every iterate.", "anchors": ["src/gamma.rs:invgammp"]}
{"id": "C22", "title": "beta: symmetry, sign and panics", "statement": "beta(z,w) panics iff not (z > 0 and w > 0); otherwise beta(z,w) = beta(w,z) bit for bit and the result is >= 0 or NaN.", "quantifier": "every pair of f64", "why_tests_cant": "2^128 pairs.", "anchors": ["src/beta.rs:beta"]}
{"id": "C23", "title": "betai: panics and end points", "statement": "betai(a,b,x) panics iff not (a > 0, b > 0 and 0 <= x <= 1); betai(a,b,0)=0 and betai(a,b,1)=1.", "quantifier": "every triple of f64", "why_tests_cant": "2^192 triples.", "anchors": ["src/beta.rs:betai"]}
{"id": "C24", "title": "betai approximates I_x(a,b) for large parameters", "statement": "betai(a,a,1/2) is 1/2 up to rounding for every a > 0, including a > 3000.", "quantifier": "every a > 0", "why_tests_cant": "Only a few parameter pairs can be tabulated.", "anchors": ["src/beta.rs:betai", "src/beta.rs:betaiapprox"]}
{"id": "C25", "title": "invbetai: saturation and range", "statement": "invbetai(p,a,b) is 0 for p <= 0 and 1 for p >= 1 (any a, b); whenever it returns, the result is in [0,1] or NaN.", "quantifier": "every triple of f64", "why_tests_cant": "2^192 triples and an iteration whose every iterate must stay in range.", "anchors": ["src/beta.rs:invbetai"]}
{"id": "C26", "title": "erf and erfc panic exactly on NaN", "statement": "erf(x) and erfc(x) panic if and only if x is NaN.", "quantifier": "every f64 x", "why_tests_cant": "There are 2^64 inputs; a test samples a handful.", "anchors": ["src/error.rs:erf", "src/error.rs:erfc", "src/error.rs:erfccheb"]}
{"id": "C27", "title": "erf is odd, erfc is reflected", "statement": "As numbers (a zero result may carry either sign), erf(-x) = -erf(x) for every non-zero x, and erfc(-x) = 2 - erfc(x) (rounded) for x > 0; erf(x) = 1 - erfc(x) (rounded) for x >= 0.", "quantifier": "every non-NaN f64 x", "why_tests_cant": "There are 2^64 inputs; a test samples a handful.", "anchors": ["src/error.rs:erf", "src/error.rs:erfc"]}
{"id": "C28", "title": "erf and erfc ranges", "statement": "-1 <= erf(x) <= 1 and 0 <= erfc(x) <= 2 for every non-NaN x, and neither is NaN.", "quantifier": "every non-NaN f64 x", "why_tests_cant": "There are 2^64 inputs; a test samples a handful. One rounding error anywhere could leave the interval.", "anchors": ["src/error.rs:erf", "src/error.rs:erfc"]}
{"id": "C29", "title": "inverfc and inverf: saturation and symmetry", "statement": "inverfc(p) = -100 for p >= 2 and 100 for p <= 0; inverf(p) = 100 for p >= 1 and -100 for p <= -1; inverfc(p) = -inverfc(2-p) bit for bit for 1 < p < 2; both panic on NaN.", "quantifier": "every f64 p", "why_tests_cant": "There are 2^64 inputs; a test samples a handful.", "anchors": ["src/error.rs:inverfc", "src/error.rs:inverf"]}
{"id": "C30", "title": "erfcx is total", "statement": "erfcx(x) never panics (all table look-ups are in bounds) and is NaN if and only if x is NaN.", "quantifier": "every f64 x", "why_tests_cant": "There are 2^64 inputs; a test samples a handful. The table index is computed from the bits of x.", "anchors": ["src/error.rs:erfcx", "src/error.rs:cheb_interpolant"]}
{"id": "C31", "title": "erfcx is positive", "statement": "erfcx(x) > 0 for every non-NaN x (x < +inf), and erfcx(x) <= 1 for x >= 0.125.", "quantifier": "every non-NaN f64 x", "why_tests_cant": "There are 2^64 inputs; a test samples a handful. 448 table rows of 10 coefficients each.", "anchors": ["src/error.rs:erfcx"]}
{"id": "C32", "title": "erfcx has no jumps at table seams", "statement": "For neighbouring floats in [0.125, 12], in particular on the two sides of every boundary between table intervals, the values of erfcx differ by at most 2^-49.", "quantifier": "every interior boundary of the table", "why_tests_cant": "447 seams, each between two rows of coefficients.", "anchors": ["src/error.rs:cheb_interpolant"]}
{"id": "C33", "title": "erfcx reflection and overflow", "statement": "For -6.1 <= x <= -0.125, erfcx(x) is 2*exp(x*x) - erfcx(-x) (rounded); erfcx(x) = +inf for x < -26.7.", "quantifier": "every f64 x in range", "why_tests_cant": "There are 2^64 inputs; a test samples a handful.", "anchors": ["src/error.rs:erfcx"]}
{"id": "C34", "title": "erfcx is accurate", "statement": "erfcx(x) is within 1e-13 (relative) of exp(x^2)*erfc(x) for every finite x >= -26.6, and within 1e-14 for x > -0.125 (up to half the smallest positive number when the result is subnormal); below -26.7 it is +inf and the true value exceeds the largest finite number.", "quantifier": "every f64 x in range", "why_tests_cant": "There are 2^64 inputs; a test samples a handful.", "anchors": ["src/error.rs:erfcx"]}
{"id": "C35", "title": "dawson is odd", "statement": "dawson(-x) = -dawson(x) for every x.", "quantifier": "every non-NaN f64 x", "why_tests_cant": "There are 2^64 inputs; a test samples a handful.", "anchors": ["src/dawson.rs:dawson"]}
{"id": "C36", "title": "dawson is total", "statement": "dawson(x) neither panics nor returns NaN, for every finite x.", "quantifier": "every finite f64 x", "why_tests_cant": "There are 2^64 inputs; a test samples a handful. The failing inputs are beyond 7e18.", "anchors": ["src/dawson.rs:dawson"]}
{"id": "C37", "title": "faddeeva never panics", "statement": "faddeeva(re, im) never panics with an out-of-bounds index or a failed assertion, for any arguments.", "quantifier": "every pair of f64", "why_tests_cant": "2^128 pairs; each must map to a covered tile of a 50x50 table.", "anchors": ["src/faddeeva.rs:faddeeva"]}
{"id": "C38", "title": "faddeeva conjugation symmetry", "statement": "faddeeva(-re, im) is the complex conjugate of faddeeva(re, im).", "quantifier": "every pair of f64", "why_tests_cant": "2^128 pairs over a dozen branches.", "anchors": ["src/faddeeva.rs:faddeeva"]}
{"id": "C39", "title": "faddeeva on the axes", "statement": "faddeeva(x, 0) = (exp(-x^2), 2/sqrt(pi)*dawson(x)) for 0 < |x| <= 27, and faddeeva(0, y) = (erfcx(y), 0) for y != 0.", "quantifier": "every f64 on the axes", "why_tests_cant": "There are 2^64 inputs; a test samples a handful.", "anchors": ["src/faddeeva.rs:faddeeva"]}
{"id": "C40", "title": "faddeeva propagates NaN", "statement": "If re or im is NaN, both components of faddeeva(re, im) are NaN.", "quantifier": "every pair of f64 with a NaN", "why_tests_cant": "2^117 pairs.", "anchors": ["src/faddeeva.rs:faddeeva"]}
{"id": "C41", "title": "Jn parity", "statement": "Jn(n, -x) and (-1)^n Jn(n, x) are equal numbers (or both NaN, or both calls panic) for every n and every x that is not NaN.", "quantifier": "every u32 n and non-NaN f64 x", "why_tests_cant": "2^96 pairs.", "anchors": ["src/bessel.rs:Jn"]}
{"id": "C42", "title": "In parity", "statement": "In(n, -x) and (-1)^n In(n, x) are equal numbers (or both NaN, or both calls panic) for every n and every x that is not NaN.", "quantifier": "every u32 n and non-NaN f64 x", "why_tests_cant": "2^96 pairs.", "anchors": ["src/bessel.rs:In"]}
{"id": "C43", "title": "three-term recurrences", "statement": "Yn(n+1,x) = n*(2/x)*Yn(n,x) - Yn(n-1,x) and Kn(n+1,x) = n*(2/x)*Kn(n,x) + Kn(n-1,x) hold bit for bit (evaluated in this order) for every n >= 1 and x; so does Jn for x > n+1, and for x < -(n+1) up to the sign of a zero.", "quantifier": "every u32 n and f64 x", "why_tests_cant": "Unbounded order n.", "anchors": ["src/bessel.rs:Yn", "src/bessel.rs:Kn", "src/bessel.rs:Jn"]}
{"id": "C44", "title": "second-kind functions reject the negative axis", "statement": "Yn(n,x) and Kn(n,x) are NaN for every x < 0 and every n, and for NaN x.", "quantifier": "every u32 n and x < 0 or NaN", "why_tests_cant": "2^95 pairs.", "anchors": ["src/bessel.rs:Yn", "src/bessel.rs:Kn"]}
{"id": "C45", "title": "integer-order Bessel functions propagate NaN", "statement": "Jn(n,NaN) and In(n,NaN) are NaN for every n.", "quantifier": "every u32 n", "why_tests_cant": "2^32 orders.", "anchors": ["src/bessel.rs:Jn", "src/bessel.rs:In"]}
{"id": "C46", "title": "Jn is bounded", "statement": "|Jn(n,x)| <= 1 for every n and every finite x.", "quantifier": "every u32 n and finite f64 x", "why_tests_cant": "2^96 pairs; the failures sit at tiny x.", "anchors": ["src/bessel.rs:Jn"]}
{"id": "C47", "title": "Jn and In accept every order", "statement": "Jn(n,x) and In(n,x) do not panic for any order n and any x.", "quantifier": "every u32 n and f64 x", "why_tests_cant": "2^96 pairs; the failures sit at orders near 2^31 and 2^32.", "anchors": ["src/bessel.rs:Jn", "src/bessel.rs:In"]}
{"id": "C48", "title": "besseljy and besselik reject bad arguments", "statement": "besseljy(nu,x) and besselik(nu,x) panic for every x <= 0, every nu < 0, and every NaN argument.", "quantifier": "every pair of f64", "why_tests_cant": "2^128 pairs.", "anchors": ["src/bessel.rs:besseljy", "src/bessel.rs:besselik"]}
{"id": "C49", "title": "Wronskian of besseljy", "statement": "In exact arithmetic the four results (J,Y,J',Y') of besseljy(nu,x) satisfy J*Y' - J'*Y = 2/(pi*x) whenever the call returns, no division by zero occurs, and no zero denominator had to be replaced by EPS.", "quantifier": "every real nu >= 0 and x > 0", "why_tests_cant": "A continuum of inputs and unbounded recurrence length.", "anchors": ["src/bessel.rs:besseljy"]}
{"id": "C50", "title": "Wronskian of besselik", "statement": "In exact arithmetic the four results (I,K,I',K') of besselik(nu,x) satisfy I*K' - I'*K = -1/x whenever the call returns and no division by zero occurs.", "quantifier": "every real nu >= 0 and x > 0", "why_tests_cant": "A continuum of inputs and unbounded recurrence length.", "anchors": ["src/bessel.rs:besselik"]}
{"id": "C51", "title": "value-only wrappers agree with the full functions", "statement": "Jnu_Ynu(nu,x) and Inu_Knu(nu,x) are the first two components of besseljy(nu,x) and besselik(nu,x), and panic exactly when those panic.", "quantifier": "every pair of f64", "why_tests_cant": "2^128 pairs.", "anchors": ["src/bessel.rs:Jnu_Ynu", "src/bessel.rs:Inu_Knu"]}
{"id": "C52", "title": "caches are transparent", "statement": "After any sequence of cache operations, a cached call returns exactly what the uncached function returns for the same arguments, and panics exactly when it panics.", "quantifier": "every history of cache operations, for all four cache types", "why_tests_cant": "Histories are unbounded.", "anchors": ["src/bessel.rs:CachedBesselJY", "src/bessel.rs:CachedBesselIK", "src/bessel.rs:CachedJnuYnu", "src/bessel.rs:CachedInuKnu"]}
{"id": "C53", "title": "caches hold only true values", "statement": "After any history, get(nu,x) = Some(v) implies v is the uncached function's result at (nu,x).", "quantifier": "every history of cache operations", "why_tests_cant": "Histories are unbounded.", "anchors": ["src/bessel.rs:CachedBesselJY", "src/bessel.rs:get"]}
{"id": "C54", "title": "cache keys are exact bit patterns", "statement": "A cached value is found only under the exact bits of nu and x with which it was computed: +0.0 and -0.0, or two NaNs with different bits, are different keys.", "quantifier": "every history and every pair of keys", "why_tests_cant": "Histories and keys are unbounded.", "anchors": ["src/bessel.rs:contains", "src/bessel.rs:get"]}
{"id": "C55", "title": "cache size accounting", "statement": "len() is the number of distinct argument pairs held; a cached call increases it by one exactly when the pair was absent and the call returned; is_empty() iff len() = 0; contains(nu,x) iff get(nu,x) is Some; clear() empties; reserve and shrink_to_fit change nothing observable.", "quantifier": "every history of cache operations", "why_tests_cant": "Histories are unbounded.", "anchors": ["src/bessel.rs:len", "src/bessel.rs:is_empty", "src/bessel.rs:clear", "src/bessel.rs:reserve", "src/bessel.rs:shrink_to_fit"]}
{"id": "C56", "title": "retain keeps exactly the selected entries", "statement": "retain(f) visits each entry exactly once with its own arguments and value, and afterwards exactly the entries for which f returned true remain, unchanged, whatever the visiting order.", "quantifier": "every cache, predicate and visiting order", "why_tests_cant": "The visiting order is unspecified.", "anchors": ["src/bessel.rs:retain"]}
{"id": "C57", "title": "a panicking cached call leaves the cache unchanged", "statement": "If a cached call panics, the cache's observable contents are as before the call.", "quantifier": "every history and argument pair", "why_tests_cant": "Histories are unbounded; the crash point is inside the computation.", "anchors": ["src/bessel.rs:CachedBesselJY", "src/bessel.rs:CachedBesselIK"]}
{"id": "C58", "title": "continued fractions are evaluated correctly", "statement": "In exact arithmetic, as long as no denominator is replaced by the underflow guard, the continued-fraction evaluation of gammq (gammp) and betai after any number of steps is a convergent of the classical continued fraction: exactly for the incomplete beta function; for the incomplete gamma function up to the explicit perturbation 2^-970*(1 - (x+1-a)*f) that comes from starting the recurrence at 1/FPMIN instead of infinity.", "quantifier": "every number of steps and all real arguments", "why_tests_cant": "Unbounded number of steps.", "anchors": ["src/gamma.rs:gcf", "src/beta.rs:betacf"]}
{"id": "C59", "title": "the incomplete-gamma series is evaluated correctly", "statement": "In exact arithmetic the series accumulated by gammp's small-x branch after n steps is the n-th partial sum of sum_k x^k/(a(a+1)...(a+k)).", "quantifier": "every n and all real a > 0, x", "why_tests_cant": "Unbounded number of steps.", "anchors": ["src/gamma.rs:gser"]}
{"id": "C60", "title": "Chebyshev sums are evaluated correctly", "statement": "In exact arithmetic the Clenshaw evaluations used by erfc and by the fractional Bessel functions equal the corresponding sums of c_j T_j.", "quantifier": "every real argument and every coefficient list", "why_tests_cant": "A continuum of inputs.", "anchors": ["src/error.rs:erfccheb", "src/bessel.rs:chebev"]}
{"id": "C61", "title": "Horner evaluation is exact", "statement": "In exact arithmetic the polynomial evaluators return sum c_i x^i for every coefficient list.", "quantifier": "every coefficient list and argument", "why_tests_cant": "Unbounded list length.", "anchors": ["src/utils.rs:polynomial", "src/bessel.rs:poly", "src/bessel.rs:rat", "src/bessel.rs:asp"]}
{"id": "C62", "title": "rescaling does not change Jn and In", "statement": "In exact arithmetic the result of the downward recurrence is the same whether or not (and however often) the intermediate values are rescaled: it is the normalised solution of the three-term recurrence started at the documented starting order.", "quantifier": "every order, argument and rescaling pattern", "why_tests_cant": "The rescaling pattern depends on the magnitude of intermediate values.", "anchors": ["src/bessel.rs:Jn", "src/bessel.rs:In"]}
{"id": "C63", "title": "dawson approximates Dawson's integral", "statement": "dawson(x) approximates exp(-x^2) * integral_0^x exp(t^2) dt; in particular it is positive for every x > 0.", "quantifier": "every f64 x", "why_tests_cant": "A continuum of inputs.", "anchors": ["src/dawson.rs:dawson"]}
{"id": "C64", "title": "gammp and gammq are never NaN", "statement": "gammp(a,x) and gammq(a,x) return a number, not NaN, for every finite a > 0 and x >= 0.", "quantifier": "every valid finite pair", "why_tests_cant": "2^126 pairs; the failing ones need a >= 100 and x just below a.", "anchors": ["src/gamma.rs:gammp", "src/gamma.rs:gammq", "src/gamma.rs:gammpapprox"]}
{"id": "C65", "title": "cache equality is equality of contents", "statement": "Two caches compare equal exactly when they hold the same argument bits and the stored values compare equal with ==.", "quantifier": "every pair of reachable caches", "why_tests_cant": "Histories are unbounded.", "anchors": ["src/bessel.rs:CachedBesselJY"]}
{"id": "C66", "title": "erfc is accurate", "statement": "For every finite x, erfc(x) is within 1e-13 of the complementary error function, and for x >= 0 its relative error is at most 3e-13 (as long as the value is above 1e-283).", "quantifier": "every finite f64 x", "why_tests_cant": "2^64 arguments; a wrong digit in one of 28 coefficients shifts the result everywhere by less than a typical test tolerance.", "anchors": ["src/error.rs:erfc", "src/error.rs:erfccheb"]}
{"id": "C67", "title": "erf is accurate", "statement": "For every finite x, erf(x) is within 1e-13 of the error function.", "quantifier": "every finite f64 x", "why_tests_cant": "2^64 arguments.", "anchors": ["src/error.rs:erf"]}
{"id": "C68", "title": "ln_gamma is accurate", "statement": "For every positive z, ln_gamma(z) is within 4e-9 of the logarithm of the gamma function, up to rounding errors proportional to the size of the intermediate results.", "quantifier": "every finite f64 z > 0", "why_tests_cant": "2^63 arguments.", "anchors": ["src/gamma.rs:ln_gamma"]}
{"id": "C69", "title": "gamma is accurate", "statement": "For every z > -170 that is not a pole and whose gamma value does not overflow, gamma(z) is finite and its relative error is at most 6e-13. (Nearer to -171 and beyond, the running product can overflow first: gamma(-170.99999999999997) is 0 although the true value is about 1e-296.)", "quantifier": "every f64 z with -170 < z <= 171.6243769563027", "why_tests_cant": "2^64 arguments; a wrong digit in one of 24 coefficients or one iteration too many shows only on part of the range.", "anchors": ["src/gamma.rs:gamma"]}
{"id": "C70", "title": "inverfc and inverf invert erfc and erf", "statement": "For every 1e-280 <= p < 2, inverfc(p) is within 2e-11 of the point where the complementary error function equals p; for every 0 <= p < 1, inverf(p) is within 2.1e-11 of the point where the error function equals p; erfc(inverfc(p)) gives p back within 3e-11 and inverfc(erfc(x)) gives x back within 2.5e-11 for 0 <= x <= 25. (For negative p, inverf first rounds 1 - p: its result belongs to a number within 2^-52 of p, and at the double next above -1 it is -100.)", "quantifier": "every f64 p with 1e-280 <= p < 2, every f64 p with -1 + 2^-52 <= p < 1, every f64 x in [0, 25]", "why_tests_cant": "2^63 arguments; a wrong digit in the starting value or a wrong sign in the Halley step leaves an error that depends on p.", "anchors": ["src/error.rs:inverfc", "src/error.rs:inverf"]}
{"id": "C71", "title": "Jn of order 0 and 1 is accurate", "statement": "Jn(0,x) and Jn(1,x) approximate the Bessel functions J0 and J1 with an absolute error of at most 5e-13 in exact arithmetic (1.1e-14 for |x| < 8, 1.301e-12/sqrt|x| beyond); in binary64 at most 2.01e-14 for |x| < 8 and (1.31e-12 + |x|/2^53)/sqrt|x| beyond.", "quantifier": "every real (f64) x", "why_tests_cant": "A continuum of inputs; a wrong digit in one of 48 coefficients or a wrong matching point shows only on part of the line and below a typical tolerance.", "anchors": ["src/bessel.rs:Jn", "src/bessel.rs:j0", "src/bessel.rs:j1"]}
{"id": "C72", "title": "In of order 0 and 1 is accurate", "statement": "In(0,x) and In(1,x) approximate the modified Bessel functions I0 and I1 with a relative error of at most 3e-13 in exact arithmetic, plus the rounding errors of the evaluation.", "quantifier": "every real (f64) x", "why_tests_cant": "A continuum of inputs; the defect for order 1 below -15 is invisible on positive arguments.", "anchors": ["src/bessel.rs:In", "src/bessel.rs:i0", "src/bessel.rs:i1"]}
{"id": "C73", "title": "In of general order is accurate", "statement": "For n >= 2, In(n,x) approximates the modified Bessel function of the first kind with a small relative error (7e-13 plus a few units in the last place per step of the recurrence), and is finite wherever the exact value is representable.", "quantifier": "every u32 n >= 2 and every f64 x", "why_tests_cant": "2^96 pairs; the failures sit at large x for small n and at tiny x for large n.", "anchors": ["src/bessel.rs:In"]}
{"id": "C74", "title": "Jn of general order is accurate", "statement": "For n >= 2, Jn(n,x) approximates the Bessel function of the first kind: with a small absolute error for |x| > n (upward recurrence) and a relative error of 2.1e-13 plus rounding for |x| <= n (downward recurrence). (Values that would underflow come out infinite or as garbage: Jn(100,0.01) is infinite.)", "quantifier": "every u32 n >= 2 and every f64 x", "why_tests_cant": "2^96 pairs; the length of the recurrence and its error growth depend on both arguments.", "anchors": ["src/bessel.rs:Jn"]}
{"id": "C75", "title": "Kn is accurate", "statement": "For every order n and x > 0, Kn(n,x) approximates the modified Bessel function of the second kind: relative error at most 9e-13 in exact arithmetic, and 1e-12 plus 5n half units in the last place in binary64.", "quantifier": "every u32 n and every real (f64) x > 0", "why_tests_cant": "2^95 pairs; a wrong digit in one of 44 coefficients shows only on part of the range and below a typical tolerance.", "anchors": ["src/bessel.rs:Kn", "src/bessel.rs:k0", "src/bessel.rs:k1"]}
{"id": "C76", "title": "gammp and gammq are accurate", "statement": "For every order a and x >= 0, gammp(a,x) and gammq(a,x) are finite and within 1e-8 + 1e-12/a of the regularised incomplete gamma functions P(a,x) and Q(a,x). (Exceptions: below a*EPSILON for a < 1 the code returns 0 and 1; for a >= 100 the result can be NaN.)", "quantifier": "every f64 pair a > 0, x >= 0", "why_tests_cant": "2^126 pairs; four different algorithms and three cut-offs meet along curves in the plane, and the two loops stop after a data-dependent number of up to 10000 rounded steps.", "anchors": ["src/gamma.rs:gammp", "src/gamma.rs:gammq", "src/gamma.rs:gser", "src/gamma.rs:gcf"]}
{"id": "C77", "title": "beta is accurate", "statement": "For all z, w > 0, beta(z,w) approximates Euler's integral of t^(z-1) (1-t)^(w-1) over [0,1] with a relative error of at most 1.21e-8 in exact arithmetic, and 2.5e-8 + 2e-12 (1/z + 1/w) + 3.2e-13 (z+w+7) ln(z+w+7) in binary64. (For z <= 2^-54 the code returns infinity although the true value is about 1/z.)", "quantifier": "every pair of positive reals (f64)", "why_tests_cant": "2^126 pairs; the three logarithms cancel by an amount that depends on both arguments.", "anchors": ["src/beta.rs:beta"]}
{"id": "C78", "title": "betai is accurate", "statement": "For all a, b > 0 and 0 <= x <= 1, betai(a,b,x) is within 2e-8 of the regularised incomplete beta function I_x(a,b); in particular it is a number between 0 and 1 up to that error.", "quantifier": "every f64 triple a > 0, b > 0, 0 <= x <= 1", "why_tests_cant": "2^189 triples; the choice between the two continued fractions is made along a curve, and the loop stops after a data-dependent number of up to 9999 steps.", "anchors": ["src/beta.rs:betai", "src/beta.rs:betacf"]}
{"id": "C79", "title": "Yn of order 0 and 1 is accurate", "statement": "For every x > 0, Yn(0,x) and Yn(1,x) approximate the Bessel functions of the second kind Y0 and Y1: in exact arithmetic the error is at most 1.1e-15 + 6.4e-15|ln x| (order 0) and 2e-17 + x(5.3e-16 + 8.1e-16|ln x|) (order 1) for x < 8, and 1.301e-12/sqrt(x) beyond; in binary64 at most 2.9e-14 + 1.45e-14|ln x| (order 0) and 3.6e-14 + 1.45e-14|ln x| + 7e-16/x (order 1, from 1e-300 on) for x < 8, and (1.31e-12 + x/2^53)/sqrt(x) beyond.", "quantifier": "every real (f64) x > 0 (x >= 1e-300 for order 1 in binary64: the value itself is near overflow below)", "why_tests_cant": "A continuum of inputs; a wrong digit in one of 66 coefficients or a wrong matching point shows only on part of the line and below a typical tolerance.", "anchors": ["src/bessel.rs:Yn", "src/bessel.rs:y0", "src/bessel.rs:y1"]}
{"id": "C80", "title": "Yn of general order is accurate", "statement": "For every n >= 2 and x > 0, Yn(n,x) approximates the Bessel function of the second kind Y_n(x): in exact arithmetic the error is at most 2.4e-14 (1+x)(1+|ln x|) (|Y_n(x)| + (1+|ln x|) |J_n(x)|) for x < 8, and 2.5e-12 (|Y_n(x)| + |J_n(x)|) beyond; in binary64, as long as nothing comes near overflow, the relative error is at most 8e-13 + 160 n(n+5)/2^53 for x <= 1, and for larger x the rounding errors of the recurrence add terms of the order of n^2/2^53 times |Y_n(x)| (and of x^2/2^53 times |Y_n(x)| + |J_n(x)|).", "quantifier": "every u32 n >= 2 and every real (f64) x > 0", "why_tests_cant": "2^95 pairs; the length of the recurrence and the growth of errors depend on both arguments.", "anchors": ["src/bessel.rs:Yn"]}
{"id": "C81", "title": "invgammp returns for every probability and shape", "statement": "For every a > 0 and every 0 < p < 1, invgammp(p,a) returns a positive number (the documentation promises the x with P(a,x) = p and a panic only for a <= 0).", "quantifier": "every f64 a > 0 and every f64 p with 0 < p < 1", "why_tests_cant": "2^127 pairs; whether one of the twelve Newton-like steps leaves the domain of gammp depends on both arguments.", "anchors": ["src/gamma.rs:invgammp", "src/gamma.rs:gammp"]}
{"id": "C82", "title": "invbetai returns for every probability and shapes", "statement": "For all a, b > 0 and every 0 < p < 1, invbetai(p,a,b) returns a number strictly between 0 and 1.", "quantifier": "every f64 a, b > 0 and every f64 p with 0 < p < 1", "why_tests_cant": "2^191 triples; betai panics on an iterate outside [0,1], so each of the ten steps must stay inside for every input.", "anchors": ["src/beta.rs:invbetai", "src/beta.rs:betai"]}
{"id": "C83", "title": "faddeeva approximates the Faddeeva function", "statement": "faddeeva(x,y) approximates the real and imaginary parts of w(x+iy) = exp(-z^2) erfc(-iz) for every z = x+iy at which w is representable.", "quantifier": "every pair of finite f64 (x, y)", "why_tests_cant": "2^128 pairs and eight formulas with their seams.", "anchors": ["src/faddeeva.rs:faddeeva", "src/dawson.rs:dawson", "src/error.rs:erfcx"]}
