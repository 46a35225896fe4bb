# A Lean 4 model of puruspe

`puruspe` is a floating-point special-function library (gamma, beta, error functions, Dawson, Faddeeva, Bessel functions and caches for the
Bessel functions of fractional order). This directory holds a formal model of it in Lean 4 and proofs about that model.

* `properties.jsonl` – the properties (C01 ...), in English.
* `MANIFEST.json` – for each property its status and the exact theorem names.
* `lean/` – the Lake project. `lake build` in it checks everything.
* `seeded/LOG.jsonl` – wrong programs the theorems were tried against.
* `tools/` – generators (tables, `properties.jsonl`, `MANIFEST.json`). Nothing they produce is trusted except the transcription of the tables.

## The model

The crate is transcribed function by function in `lean/Verif/Model`, with a comment citing the file and lines on each definition.
The transcription is *generic in the arithmetic*: it is written once over a type `α` with `+ - * /`, negation, decimal literals and two classes,

* `Arith α` – what Rust offers on `f64` without libm (`abs`, `sqrt`, comparisons, `max`/`min`, casts, `fract`, constants, fused multiply-add) and
  the crate's own `frexp`/`ldexp`;
* `Libm α` – what comes from the platform's math library (`exp ln sin cos sinh cosh powf`);

and is used at three instances:

* `F64` – bit-exact execution. `Verif/F64` is an executable model of IEEE-754 binary64 on natural numbers; `F64/Round`, `F64/Val` and `F64/Ops` prove
  that its operations are round-to-nearest-even of the exact results. libm stays a parameter, constrained only by the hypotheses of each theorem.
* `ℝ` – the same program in exact real arithmetic (decimal literals are their exact values). Used for the error of a method without rounding.
* `XR` (`Verif/Exact.lean`) – the reals with one extra value `undef` for undefined operations. Used where absence of divisions by zero is part of the claim.

A Rust panic (`assert!`, `panic!`, index out of bounds, `unwrap`, integer overflow with checks on) is the explicit value `.error .panic`.
`Cfg` carries the two build settings the semantics depends on: `fma` (`cfg(target_feature = "fma")` in `utils::mul_add`) and `checks`
(overflow checks: on → panic, off → two's complement wrap). Theorems hold for both unless they say otherwise.

`for` loops are folds or recursions on the remaining iterations. `while`/`loop` without syntactic bound are recursions on fuel returning
`.error .fuel` on exhaustion; `Returns`/`Panics` exclude that value, so a theorem that a call returns also shows that the fuel suffices.

### Assumptions on libm

No axioms: each theorem that needs something takes one of these as a hypothesis, and each is shown to be satisfiable by the correctly rounded functions.

| hypothesis | content | witness |
|---|---|---|
| `LibmSpec` | special cases, signs and coarse ranges (C99 Annex F) | `ideal_spec` |
| `LibmAcc` | in addition `exp`, `ln` correct to one part in 10^6; `exp` underflows to 0 below -750 | `ideal_acc` |
| `LibmUlp` | in addition `exp`, `ln` correct to one unit in the last place | `ideal_ulp` |
| `ExpOver` | `exp` is infinite from 710 on (used by `I_overflows` only) | `ideal_over` |
| `LibmTrig` | in addition `sin`, `cos` within `2^-52` of the exact values | `ideal_trig` |

### Specifications

`Verif/Spec.lean` has the vocabulary (`Returns`, `Panics`, `IsCompl`, ...). `Verif/SpecFun.lean` defines `erf`, `erfc`, `erfcx` and Dawson's integral over the reals
as integrals. `Real.Gamma`, `GenContFract.convs`, `Chebyshev.T`, `Nat.factorial` are Mathlib's. `lowerGamma`, `regP` (incomplete gamma) are integrals in `Proofs/IncReal.lean`.

## What is modelled and what is not

| source | modelled | not modelled |
|---|---|---|
| `utils.rs` | all of it (`factorial`, `rising_factorial`, `frexp`, `ldexp`, `sign`, `polynomial`, `mul_add`) | – |
| `gamma.rs` | all of it (`ln_gamma`, `gamma`, `gammp`, `gammq`, `gser`, `gcf`, `gammpapprox`, `invgammp`) | – |
| `beta.rs` | all of it | – |
| `error.rs` | all of it, with both Chebyshev tables (450 rows) | commented-out code |
| `dawson.rs` | all of it | – |
| `faddeeva.rs` | all of it, with its tables; `num_complex` as the structure `Cx` with textbook operations | commented-out code, the rest of `num_complex` |
| `bessel.rs` | all functions; the four caches over an abstract hash map with an arbitrary iteration order | capacity and allocation (`with_capacity`, `reserve`, `shrink_to_fit` have no observable effect in the model), hashing, `Debug` output |
| `lib.rs` | – | `lambert_w` and friends are re-exports of another crate |

Simplifications, all stated at the definitions: NaN results are canonical (Rust leaves sign and payload of a NaN result open); `powi(2)` is `x*x` and `powi(3)` is
`x*x*x`; the caches are single-threaded (`&mut self`); stack and heap exhaustion do not exist; `frexp`/`ldexp` exist bit for bit on `F64` and as their mathematical meaning on `ℝ`.

## Trusted base

* Lean 4.33.0's kernel, and the axioms `propext`, `Classical.choice`, `Quot.sound`. Every theorem in `MANIFEST.json` depends on these three at most
  (`#print axioms`; `tools/manifest.py` writes the file that prints them). No `sorry`, no `native_decide`, no `bv_decide`, no axioms of our own. `decide +kernel` is evaluation by the kernel.
* The reading of the Rust source, including the transcription of the tables by `tools/gen_tables.py`.
* The semantics of Rust's `f64` as IEEE-754 binary64 with round to nearest even and no extended precision.
* What the statements themselves say; see `Verif/Spec.lean`, `Verif/SpecFun.lean` and the files in `Verif/Props`.

## Plan per property

| id | modelled | proof method |
|----|----------|--------------|
| C01–C03 | `frexp`/`ldexp` on 64-bit vectors, literally | bit-vector to integer lemmas; the full claim is false on subnormals / underflow: refutation by a concrete witness, `_partial` on normals |
| C04 | `sign` | cases |
| C05 | `rising_factorial` at ℝ | induction over blocks |
| C06, C07, C10 | `factorial` at F64 | n ≤ 170: kernel evaluation of the complete finite table; n ≥ 171: induction with monotone rounding |
| C08, C09, C11, C12 | `gamma` at F64 | case analysis, monotonicity of rounding, loop invariants |
| C13 | `gamma` at ℝ | loop induction |
| C14–C17, C64 | `gammp`, `gammq` at F64 | case analysis on the regimes, sign calculus; C17 and C64 are false in places (witnesses) |
| C18 | `gammp` at F64 and ℝ | false: witness and a proved lower bound of the true P(a,x); the series branch converges with an explicit bound |
| C19 | `ln_gamma` at F64 | false for z ≤ 2^-54 (refutation), partial elsewhere |
| C20, C21 | `invgammp` | invariant of the iteration |
| C22–C25 | `beta`, `betai`, `invbetai` | symmetry of rounded addition, invariants; C24 is refuted (a misplaced parenthesis in the quadrature) |
| C26–C29 | `erf`, `erfc`, `inverf`, `inverfc` | symmetry of rounding; range by interval evaluation of the Clenshaw recurrence |
| C30–C34 | `erfcx` with its full tables | index arithmetic on bits; complete-table kernel checks lifted by monotone rounding; accuracy by propagating errors along the differential equation `y' = 2xy - 2/√π` |
| C35, C36, C63 | `dawson` | symmetry; refutation of totality (u64 overflow) and of accuracy (wrong update order); accuracy near 0 |
| C37–C40 | `faddeeva` with its full tables | complete-table check lifted by monotone rounding; sign symmetry of rounding |
| C41–C47 | `Jn Yn In Kn` | symmetry, induction on the order; refutations by kernel evaluation (C42, C45, C46, C47) |
| C48 | `besseljy`, `besselik` at F64 | NaN propagation through the convergence loop |
| C49, C50 | `besseljy`, `besselik` at XR | invariant of the recurrences, field algebra |
| C51 | value-only wrappers | unfolding and panic propagation |
| C52–C57, C65 | the caches | refinement, induction over histories |
| C58–C62 | continued fractions, series, Clenshaw, Horner, rescaling at ℝ | induction over steps, against Mathlib's `GenContFract`, `Chebyshev.T`, `Polynomial` |
| C66, C67 | `erfc`, `erf` at F64 and ℝ | residual of the differential equation as a polynomial with kernel-checked coefficients; rounding errors by `FlErr` |
| C68 | `ln_gamma` at F64 and ℝ | second derivative of the defect of the functional equation is a rational function; its sign is checked on integer polynomials |
| C69 | `gamma` at F64 and ℝ | Stirling's series as a bracket of `log Γ` (`Proofs/Stirling`), certificates on `[2.5, 3.5]`, relative errors through the two loops |
| C70 | `inverfc`, `inverf` at F64 and ℝ | starting value: 1800 subintervals with Taylor bounds in ℕ; Halley step: third-order error bound with perturbed ingredients |
| C71, C72 | `Jn`, `In` of order 0 and 1 at ℝ | near 0: interval certificates against the truncated power series; far out: the error satisfies a linear differential system whose residual is bounded by certificates, with an energy estimate from the initial values at 8 and 15; in F64 rounding errors by `FlErr`/`Rel` on the expression trees |
| C73 | `In` of order n ≥ 2 at ℝ and F64 | comparison of the recurrence with `I_j` (quotients `b_j/I_j` are averages, contraction by 1/4 per step above |x|); loop invariant with relative errors and exact rescaling; large-x refutation by a polynomial certificate for all x ≥ 690, tiny-x refutations by kernel evaluation |
| C74 | `Jn` of order n ≥ 2 at ℝ (both regimes) and F64 (|x| > n) | upward: the energy form `a² − (2k/x)ab + b²` is non-increasing along the recurrence up to a factor that telescopes to ρ = (|x|+1)/(|x|−n+1), so an error made at any step is amplified by at most ρ; downward: Casoratian against `J`, relative contraction above |x|, energy below it, normalisation `J_0 + 2ΣJ_2k = 1` proved by differentiating; starting order checked by a kernel table for n < 200 and an analytic bound beyond; underflow refutations by kernel evaluation |
| C75 | `Kn` of every order at ℝ and F64 | `K_ν` as the integral of `exp(-x cosh t) cosh νt` (`SpecBesselK`), its recurrence, derivative and closed form at ν = 1/2 proved; the approximations of order 0 and 1 are compared with it through the residual of the differential equation (energy/comparison argument) with integer-polynomial certificates, on (0,1] with the logarithmic part and on [1,∞) after scaling by √x·e^x; the upward recurrence has positive terms only, so relative errors do not grow beyond rounding |
| C76 | `gammp`, `gammq`, `gser`, `gcf` at F64 | `P` and `Q` as integrals (`SpecIncGamma`); the continued fraction's remainders are the integrals of `(t-x)^k t^(a-1) e^-t`, which gives an exact error formula and a contraction factor for every step; the modified Lentz recurrence in binary64 is followed by an invariant (relative errors of c and d stay below 2000 half units because each step contracts them); the stopping tests are turned into bounds of the remainder; cut-offs by explicit tail bounds |
| C77 | `beta` at ℝ and F64 | `eulerBeta` as an integral (`SpecIncBeta`), equal to the quotient of gamma functions; C68 for the three logarithms; convexity of the logarithm of the gamma function bounds the effect of rounding `z + w` |
| C78 | `betai`, `betacf` at ℝ and F64 | `regBeta` as a quotient of integrals; the incomplete integral is a hypergeometric series (`HypGeo`, `IncBeta`), the fraction is Gauss' and its remainders are quotients of contiguous series; chain parameters `g_n` give positivity of the denominators and a contraction factor for every step; in binary64 with second parameter at most one the computed ratios lie between the exact ratios of the fraction at `x(1-16u)` and `x(1+16u)`, which are monotone in `x` (`BetaSand`, `BetaCfF`–`BetaCfI`); refutations by evaluating the fraction in the kernel, and by an upper bound of the first 20000 convergents |
| C79 | `Yn` of order 0 and 1 at ℝ and F64 | `Y_n` as its series (`SpecBesselY`), derivatives by termwise differentiation; Euler's constant to 17 digits (`EulerGamma`); below 8 the fit is compared with the truncated series by interval certificates, beyond 8 the energy estimate of C71 with the phase moved by a quarter turn (the tables are the same) and initial values at 8 |
| C80 | `Yn` of order n ≥ 2 at ℝ and F64 | the recurrence for `Y_n` from its series; `J_{n+1} Y_n - J_n Y_{n+1} = 2/(πx)` (constant derivative and limit at 0 for n = 0, then induction); an error in the two first values is a combination of `J_n` and `Y_n` with coefficients bounded by amplitude estimates; in binary64 the two coefficients are followed along the recurrence (variation of constants), by amplitude bounds up to the order x and by the monotonicity of `J_k` and of `-Y_k/J_k` beyond |
| C81 | `invgammp` at F64 and ℝ | refutation: enclosure of the first guess by rounding bounds, then `gammpq_nan` (C64) and NaN propagation through one step; exact arithmetic: invariant `x > 0` of the iteration |
| C82 | `invbetai` at ℝ | first guess in (0,1) in both branches; invariant `0 < x < 1` of the iteration |
| C83 | `faddeeva` at F64 | `w` defined in `SpecFaddeeva` by a complex line integral; on the axes it reduces to `erfcxR` and `dawsonR`, so C39 with C34 and C63 gives accuracy there and a refutation at 0.5; in the disk of radius 0.23 the truncation error of the Maclaurin polynomials (integration along the segment) plus rounding errors of the complex Horner scheme by list induction; far from the origin `w` is first shown equal to `(2/√π) ∫₀^∞ e^(-s²+2izs) ds`, integration by parts gives the expansion with an explicit remainder (bounded in the 20-term branch through the L² norm of the Hermite polynomials), and the rounding errors are again by list induction; the lower half-plane by the reflection formula; next to the imaginary axis by the second-order expansion of the ray integral in `x` |

## Method notes

* *Refuted properties.* Where the English property is false of the code, the property keeps its full statement, the refutation is a theorem about a concrete input (or a whole
  region), and the strongest true part is proved under a name ending in `_partial`.
* *Kernel evaluation* is used only over complete finite domains (all rows of a table, all n ≤ 170, all pieces of a subdivision) and lifted to all inputs by a lemma
  (monotone rounding, interval soundness, Taylor bounds).
* *Error analysis.* `FlErr` (expressions as data, kernel-computed enclosures and errors), `Rel` (relative errors), `Ab` (absolute errors), `Interval`/`OIv`/`Poly`
  (interval evaluation of Horner schemes under both fma settings), `Sign` (sign-bit calculus), `NumEq` (equality up to the sign of zero).
* *Certificates.* `ZPoly` is polynomial arithmetic on lists of integers that the kernel evaluates; `ErfcReal`, `LanczosReal`, `GammaCore` reduce an inequality between analytic
  functions to the sign of such a polynomial on an interval.

## Findings about the code

Each is a theorem (see `MANIFEST.json`).

* `frexp` is wrong on subnormal numbers; `ldexp` returns infinity instead of underflowing (C01, C02). Consequence: `Jn(20, 1e-20)` is infinite (C46) and `Jn(2, NaN)` is a number (C45).
* `gamma(-170.99999999999997)` is 0 although the true value is a normal number (C69).
* `gammp` exceeds 1 for tiny arguments (C17), returns 0 below `a·2^-52` (C18), and `gammp`/`gammq` are NaN in a region with `a ≥ 100` (C64). Consequence: `invgammp(p, a)` panics for every `100 ≤ a ≤ 2^52` and `1e-10 ≤ p ≤ 0.45` (C81).
* `ln_gamma(z) = +inf` for `0 < z ≤ 2^-54` (C19).
* `betai(a, a, 1/2)` is zero or NaN for every `3000 < a ≤ 2^50` (C24).
* `inverf` is not odd: at the double next above -1 it returns -100 (C70).
* `erfc` never uses the last coefficient of its table (C60).
* `dawson` is wrong on most of its range (`dawson(0.5) < 0`, C63) and panics or gives NaN for huge arguments (C36). `faddeeva` inherits the panic (C37), is not exactly symmetric (C38), and has an imaginary part of the wrong sign at 0.5 (C83). Next to the imaginary axis its imaginary part can be arbitrarily wrong: at `10^22 + 7.3·10^32 i` it is below `-2·10^6` where `|w| ≤ 10^-32` (C83).
* `In(1, x)` is wrong for `x ≤ -15` (C42, C72). `In(3, x)` is wrong for all `x ≥ 690` (starting order independent of `x`), `In(20, 1e-20)` is infinite and `In(20, 5e-154)` is above 6 (C73). `Jn(100, 0.01)` is infinite and `Jn(5, 1e-100)` is above `2^400` (C74). `Jn`, `In` overflow their integer start order for huge orders (C47). `In(0, ±x)` and `In(1, x)` are infinite for `710 ≤ x ≤ 713` although the true values are representable (C72). `Kn(n, x)` is zero for every order when `x ≥ 750`, also where `K_n(x)` is large (C75).
