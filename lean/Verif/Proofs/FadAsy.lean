import Verif.Proofs.FadRay
import Verif.Proofs.ErfcxAcc

/-! Asymptotic expansion of `w` in the upper half-plane, from integration by parts in the ray integral.  The combinations `T j` of moments have the
coefficients of the Hermite polynomials. -/

namespace Verif
namespace Fad
open Complex MeasureTheory Set

theorem mr (a b c : ℕ) (h1 : b = a + 1) (h2 : c = b + 1) (q : ℂ) : q * mo b q = 2 * mo c q - (b:ℂ) * mo a q := by
  subst h1; subst h2
  have := mo_rec (a+1) q
  simp only [Nat.add_sub_cancel, zero_pow (Nat.succ_ne_zero a), neg_zero] at this
  linear_combination this
theorem mr0 (q : ℂ) : q * mo 0 q = 2 * mo 1 q - 1 := by
  have := mo_rec 0 q
  simp at this
  linear_combination this

/-- moments of the Gaussian -/
noncomputable def mu (n : ℕ) : ℝ := ∫ s in Ioi (0:ℝ), s^n * Real.exp (-1 * s^2)
theorem mo_mu (n : ℕ) : mo n 0 = (mu n : ℂ) := by
  unfold mo ker mu
  rw [← integral_complex_ofReal]
  congr 1
  funext s
  push_cast
  simp
theorem mu_rec (n : ℕ) : mu (n+2) = (n+1) / 2 * mu n := by
  have := mr n (n+1) (n+2) rfl rfl 0
  rw [mo_mu, mo_mu, mo_mu] at this
  have h : (0:ℝ) = 2 * mu (n+2) - ((n+1 : ℕ) : ℝ) * mu n := by
    have e : (0:ℂ) = 2 * (mu (n+2) : ℂ) - ((n+1 : ℕ) : ℂ) * (mu n : ℂ) := by linear_combination this
    exact_mod_cast e
  push_cast at h
  linarith
theorem mu0 : mu 0 ≤ 89/100 := by
  have h := mo0_zero
  rw [mo_mu] at h
  have h' : mu 0 = Real.sqrt Real.pi / 2 := by exact_mod_cast h
  have hk := kap_bounds.1
  have : kap * Real.sqrt Real.pi = 2 := by unfold kap; field_simp
  have hs : 0 < Real.sqrt Real.pi := Real.sqrt_pos.2 Real.pi_pos
  rw [h']
  nlinarith
theorem mu1 : mu 1 ≤ 1/2 := by
  have h := mr0 0
  rw [mo_mu, mo_mu] at h
  have : (0:ℝ) = 2 * mu 1 - 1 := by
    have e : (0:ℂ) = 2 * (mu 1 : ℂ) - 1 := by linear_combination h
    exact_mod_cast e
  linarith
theorem mu2 : mu 2 ≤ 89/200 := by have := mu_rec 0; have h := mu0; norm_num at this ⊢; linarith
theorem mu3 : mu 3 ≤ 1/2 := by have := mu_rec 1; have h := mu1; norm_num at this ⊢; linarith
theorem mu4 : mu 4 ≤ 267/400 := by have := mu_rec 2; have h := mu2; norm_num at this ⊢; linarith
theorem mu5 : mu 5 ≤ 1 := by have := mu_rec 3; have h := mu3; norm_num at this ⊢; linarith
theorem mu6 : mu 6 ≤ 267/160 := by have := mu_rec 4; have h := mu4; norm_num at this ⊢; linarith
theorem mu7 : mu 7 ≤ 3 := by have := mu_rec 5; have h := mu5; norm_num at this ⊢; linarith
theorem mu8 : mu 8 ≤ 1869/320 := by have := mu_rec 6; have h := mu6; norm_num at this ⊢; linarith
theorem mu9 : mu 9 ≤ 12 := by have := mu_rec 7; have h := mu7; norm_num at this ⊢; linarith
theorem mu10 : mu 10 ≤ 16821/640 := by have := mu_rec 8; have h := mu8; norm_num at this ⊢; linarith
theorem mu11 : mu 11 ≤ 60 := by have := mu_rec 9; have h := mu9; norm_num at this ⊢; linarith
theorem mu12 : mu 12 ≤ 185031/1280 := by have := mu_rec 10; have h := mu10; norm_num at this ⊢; linarith
theorem mu13 : mu 13 ≤ 360 := by have := mu_rec 11; have h := mu11; norm_num at this ⊢; linarith
theorem mu14 : mu 14 ≤ 2405403/2560 := by have := mu_rec 12; have h := mu12; norm_num at this ⊢; linarith
theorem mu15 : mu 15 ≤ 2520 := by have := mu_rec 13; have h := mu13; norm_num at this ⊢; linarith
theorem mu16 : mu 16 ≤ 7216209/1024 := by have := mu_rec 14; have h := mu14; norm_num at this ⊢; linarith
theorem mu17 : mu 17 ≤ 20160 := by have := mu_rec 15; have h := mu15; norm_num at this ⊢; linarith
theorem mu18 : mu 18 ≤ 122675553/2048 := by have := mu_rec 16; have h := mu16; norm_num at this ⊢; linarith
theorem mu19 : mu 19 ≤ 181440 := by have := mu_rec 17; have h := mu17; norm_num at this ⊢; linarith
theorem mu20 : mu 20 ≤ 2330835507/4096 := by have := mu_rec 18; have h := mu18; norm_num at this ⊢; linarith
theorem mu21 : mu 21 ≤ 1814400 := by have := mu_rec 19; have h := mu19; norm_num at this ⊢; linarith
theorem mu22 : mu 22 ≤ 48947545647/8192 := by have := mu_rec 20; have h := mu20; norm_num at this ⊢; linarith
theorem mu23 : mu 23 ≤ 19958400 := by have := mu_rec 21; have h := mu21; norm_num at this ⊢; linarith
theorem mu24 : mu 24 ≤ 1125793549881/16384 := by have := mu_rec 22; have h := mu22; norm_num at this ⊢; linarith

theorem cb (c : ℤ) {m : ℂ} {A B : ℝ} (h : ‖m‖ ≤ A) (hB : |(c:ℝ)| * A ≤ B) : ‖(c:ℂ) * m‖ ≤ B := by
  rw [norm_mul, Complex.norm_intCast]
  exact (mul_le_mul_of_nonneg_left h (abs_nonneg _)).trans hB

theorem mr1 (q : ℂ) : q * mo 1 q = 2 * mo 2 q - 1 * mo 0 q := by exact_mod_cast mr 0 1 2 rfl rfl q
theorem mr2 (q : ℂ) : q * mo 2 q = 2 * mo 3 q - 2 * mo 1 q := by exact_mod_cast mr 1 2 3 rfl rfl q
theorem mr3 (q : ℂ) : q * mo 3 q = 2 * mo 4 q - 3 * mo 2 q := by exact_mod_cast mr 2 3 4 rfl rfl q
theorem mr4 (q : ℂ) : q * mo 4 q = 2 * mo 5 q - 4 * mo 3 q := by exact_mod_cast mr 3 4 5 rfl rfl q
theorem mr5 (q : ℂ) : q * mo 5 q = 2 * mo 6 q - 5 * mo 4 q := by exact_mod_cast mr 4 5 6 rfl rfl q
theorem mr6 (q : ℂ) : q * mo 6 q = 2 * mo 7 q - 6 * mo 5 q := by exact_mod_cast mr 5 6 7 rfl rfl q
theorem mr7 (q : ℂ) : q * mo 7 q = 2 * mo 8 q - 7 * mo 6 q := by exact_mod_cast mr 6 7 8 rfl rfl q
theorem mr8 (q : ℂ) : q * mo 8 q = 2 * mo 9 q - 8 * mo 7 q := by exact_mod_cast mr 7 8 9 rfl rfl q
theorem mr9 (q : ℂ) : q * mo 9 q = 2 * mo 10 q - 9 * mo 8 q := by exact_mod_cast mr 8 9 10 rfl rfl q
theorem mr10 (q : ℂ) : q * mo 10 q = 2 * mo 11 q - 10 * mo 9 q := by exact_mod_cast mr 9 10 11 rfl rfl q
theorem mr11 (q : ℂ) : q * mo 11 q = 2 * mo 12 q - 11 * mo 10 q := by exact_mod_cast mr 10 11 12 rfl rfl q
theorem mr12 (q : ℂ) : q * mo 12 q = 2 * mo 13 q - 12 * mo 11 q := by exact_mod_cast mr 11 12 13 rfl rfl q
theorem mr13 (q : ℂ) : q * mo 13 q = 2 * mo 14 q - 13 * mo 12 q := by exact_mod_cast mr 12 13 14 rfl rfl q
theorem mr14 (q : ℂ) : q * mo 14 q = 2 * mo 15 q - 14 * mo 13 q := by exact_mod_cast mr 13 14 15 rfl rfl q
theorem mr15 (q : ℂ) : q * mo 15 q = 2 * mo 16 q - 15 * mo 14 q := by exact_mod_cast mr 14 15 16 rfl rfl q
theorem mr16 (q : ℂ) : q * mo 16 q = 2 * mo 17 q - 16 * mo 15 q := by exact_mod_cast mr 15 16 17 rfl rfl q
theorem mr17 (q : ℂ) : q * mo 17 q = 2 * mo 18 q - 17 * mo 16 q := by exact_mod_cast mr 16 17 18 rfl rfl q
theorem mr18 (q : ℂ) : q * mo 18 q = 2 * mo 19 q - 18 * mo 17 q := by exact_mod_cast mr 17 18 19 rfl rfl q
theorem mr19 (q : ℂ) : q * mo 19 q = 2 * mo 20 q - 19 * mo 18 q := by exact_mod_cast mr 18 19 20 rfl rfl q
theorem mr20 (q : ℂ) : q * mo 20 q = 2 * mo 21 q - 20 * mo 19 q := by exact_mod_cast mr 19 20 21 rfl rfl q
theorem mr21 (q : ℂ) : q * mo 21 q = 2 * mo 22 q - 21 * mo 20 q := by exact_mod_cast mr 20 21 22 rfl rfl q
theorem mr22 (q : ℂ) : q * mo 22 q = 2 * mo 23 q - 22 * mo 21 q := by exact_mod_cast mr 21 22 23 rfl rfl q
theorem mr23 (q : ℂ) : q * mo 23 q = 2 * mo 24 q - 23 * mo 22 q := by exact_mod_cast mr 22 23 24 rfl rfl q
noncomputable def T0 (q : ℂ) : ℂ := ((1 : ℤ) : ℂ) * mo 0 q
noncomputable def T1 (q : ℂ) : ℂ := ((2 : ℤ) : ℂ) * mo 1 q
noncomputable def T2 (q : ℂ) : ℂ := ((-2 : ℤ) : ℂ) * mo 0 q + ((4 : ℤ) : ℂ) * mo 2 q
noncomputable def T3 (q : ℂ) : ℂ := ((-12 : ℤ) : ℂ) * mo 1 q + ((8 : ℤ) : ℂ) * mo 3 q
noncomputable def T4 (q : ℂ) : ℂ := ((12 : ℤ) : ℂ) * mo 0 q + ((-48 : ℤ) : ℂ) * mo 2 q + ((16 : ℤ) : ℂ) * mo 4 q
noncomputable def T5 (q : ℂ) : ℂ := ((120 : ℤ) : ℂ) * mo 1 q + ((-160 : ℤ) : ℂ) * mo 3 q + ((32 : ℤ) : ℂ) * mo 5 q
noncomputable def T6 (q : ℂ) : ℂ := ((-120 : ℤ) : ℂ) * mo 0 q + ((720 : ℤ) : ℂ) * mo 2 q + ((-480 : ℤ) : ℂ) * mo 4 q + ((64 : ℤ) : ℂ) * mo 6 q
noncomputable def T7 (q : ℂ) : ℂ := ((-1680 : ℤ) : ℂ) * mo 1 q + ((3360 : ℤ) : ℂ) * mo 3 q + ((-1344 : ℤ) : ℂ) * mo 5 q + ((128 : ℤ) : ℂ) * mo 7 q
noncomputable def T8 (q : ℂ) : ℂ := ((1680 : ℤ) : ℂ) * mo 0 q + ((-13440 : ℤ) : ℂ) * mo 2 q + ((13440 : ℤ) : ℂ) * mo 4 q + ((-3584 : ℤ) : ℂ) * mo 6 q + ((256 : ℤ) : ℂ) * mo 8 q
noncomputable def T9 (q : ℂ) : ℂ := ((30240 : ℤ) : ℂ) * mo 1 q + ((-80640 : ℤ) : ℂ) * mo 3 q + ((48384 : ℤ) : ℂ) * mo 5 q + ((-9216 : ℤ) : ℂ) * mo 7 q + ((512 : ℤ) : ℂ) * mo 9 q
noncomputable def T10 (q : ℂ) : ℂ := ((-30240 : ℤ) : ℂ) * mo 0 q + ((302400 : ℤ) : ℂ) * mo 2 q + ((-403200 : ℤ) : ℂ) * mo 4 q + ((161280 : ℤ) : ℂ) * mo 6 q + ((-23040 : ℤ) : ℂ) * mo 8 q + ((1024 : ℤ) : ℂ) * mo 10 q
noncomputable def T11 (q : ℂ) : ℂ := ((-665280 : ℤ) : ℂ) * mo 1 q + ((2217600 : ℤ) : ℂ) * mo 3 q + ((-1774080 : ℤ) : ℂ) * mo 5 q + ((506880 : ℤ) : ℂ) * mo 7 q + ((-56320 : ℤ) : ℂ) * mo 9 q + ((2048 : ℤ) : ℂ) * mo 11 q
noncomputable def T12 (q : ℂ) : ℂ := ((665280 : ℤ) : ℂ) * mo 0 q + ((-7983360 : ℤ) : ℂ) * mo 2 q + ((13305600 : ℤ) : ℂ) * mo 4 q + ((-7096320 : ℤ) : ℂ) * mo 6 q + ((1520640 : ℤ) : ℂ) * mo 8 q + ((-135168 : ℤ) : ℂ) * mo 10 q + ((4096 : ℤ) : ℂ) * mo 12 q
noncomputable def T13 (q : ℂ) : ℂ := ((17297280 : ℤ) : ℂ) * mo 1 q + ((-69189120 : ℤ) : ℂ) * mo 3 q + ((69189120 : ℤ) : ℂ) * mo 5 q + ((-26357760 : ℤ) : ℂ) * mo 7 q + ((4392960 : ℤ) : ℂ) * mo 9 q + ((-319488 : ℤ) : ℂ) * mo 11 q + ((8192 : ℤ) : ℂ) * mo 13 q
noncomputable def T14 (q : ℂ) : ℂ := ((-17297280 : ℤ) : ℂ) * mo 0 q + ((242161920 : ℤ) : ℂ) * mo 2 q + ((-484323840 : ℤ) : ℂ) * mo 4 q + ((322882560 : ℤ) : ℂ) * mo 6 q + ((-92252160 : ℤ) : ℂ) * mo 8 q + ((12300288 : ℤ) : ℂ) * mo 10 q + ((-745472 : ℤ) : ℂ) * mo 12 q + ((16384 : ℤ) : ℂ) * mo 14 q
noncomputable def T15 (q : ℂ) : ℂ := ((-518918400 : ℤ) : ℂ) * mo 1 q + ((2421619200 : ℤ) : ℂ) * mo 3 q + ((-2905943040 : ℤ) : ℂ) * mo 5 q + ((1383782400 : ℤ) : ℂ) * mo 7 q + ((-307507200 : ℤ) : ℂ) * mo 9 q + ((33546240 : ℤ) : ℂ) * mo 11 q + ((-1720320 : ℤ) : ℂ) * mo 13 q + ((32768 : ℤ) : ℂ) * mo 15 q
noncomputable def T16 (q : ℂ) : ℂ := ((518918400 : ℤ) : ℂ) * mo 0 q + ((-8302694400 : ℤ) : ℂ) * mo 2 q + ((19372953600 : ℤ) : ℂ) * mo 4 q + ((-15498362880 : ℤ) : ℂ) * mo 6 q + ((5535129600 : ℤ) : ℂ) * mo 8 q + ((-984023040 : ℤ) : ℂ) * mo 10 q + ((89456640 : ℤ) : ℂ) * mo 12 q + ((-3932160 : ℤ) : ℂ) * mo 14 q + ((65536 : ℤ) : ℂ) * mo 16 q
noncomputable def T17 (q : ℂ) : ℂ := ((17643225600 : ℤ) : ℂ) * mo 1 q + ((-94097203200 : ℤ) : ℂ) * mo 3 q + ((131736084480 : ℤ) : ℂ) * mo 5 q + ((-75277762560 : ℤ) : ℂ) * mo 7 q + ((20910489600 : ℤ) : ℂ) * mo 9 q + ((-3041525760 : ℤ) : ℂ) * mo 11 q + ((233963520 : ℤ) : ℂ) * mo 13 q + ((-8912896 : ℤ) : ℂ) * mo 15 q + ((131072 : ℤ) : ℂ) * mo 17 q
noncomputable def T18 (q : ℂ) : ℂ := ((-17643225600 : ℤ) : ℂ) * mo 0 q + ((317578060800 : ℤ) : ℂ) * mo 2 q + ((-846874828800 : ℤ) : ℂ) * mo 4 q + ((790416506880 : ℤ) : ℂ) * mo 6 q + ((-338749931520 : ℤ) : ℂ) * mo 8 q + ((75277762560 : ℤ) : ℂ) * mo 10 q + ((-9124577280 : ℤ) : ℂ) * mo 12 q + ((601620480 : ℤ) : ℂ) * mo 14 q + ((-20054016 : ℤ) : ℂ) * mo 16 q + ((262144 : ℤ) : ℂ) * mo 18 q
noncomputable def T19 (q : ℂ) : ℂ := ((-670442572800 : ℤ) : ℂ) * mo 1 q + ((4022655436800 : ℤ) : ℂ) * mo 3 q + ((-6436248698880 : ℤ) : ℂ) * mo 5 q + ((4290832465920 : ℤ) : ℂ) * mo 7 q + ((-1430277488640 : ℤ) : ℂ) * mo 9 q + ((260050452480 : ℤ) : ℂ) * mo 11 q + ((-26671841280 : ℤ) : ℂ) * mo 13 q + ((1524105216 : ℤ) : ℂ) * mo 15 q + ((-44826624 : ℤ) : ℂ) * mo 17 q + ((524288 : ℤ) : ℂ) * mo 19 q
noncomputable def T20 (q : ℂ) : ℂ := ((670442572800 : ℤ) : ℂ) * mo 0 q + ((-13408851456000 : ℤ) : ℂ) * mo 2 q + ((40226554368000 : ℤ) : ℂ) * mo 4 q + ((-42908324659200 : ℤ) : ℂ) * mo 6 q + ((21454162329600 : ℤ) : ℂ) * mo 8 q + ((-5721109954560 : ℤ) : ℂ) * mo 10 q + ((866834841600 : ℤ) : ℂ) * mo 12 q + ((-76205260800 : ℤ) : ℂ) * mo 14 q + ((3810263040 : ℤ) : ℂ) * mo 16 q + ((-99614720 : ℤ) : ℂ) * mo 18 q + ((1048576 : ℤ) : ℂ) * mo 20 q
noncomputable def T21 (q : ℂ) : ℂ := ((28158588057600 : ℤ) : ℂ) * mo 1 q + ((-187723920384000 : ℤ) : ℂ) * mo 3 q + ((337903056691200 : ℤ) : ℂ) * mo 5 q + ((-257449947955200 : ℤ) : ℂ) * mo 7 q + ((100119424204800 : ℤ) : ℂ) * mo 9 q + ((-21844238008320 : ℤ) : ℂ) * mo 11 q + ((2800543334400 : ℤ) : ℂ) * mo 13 q + ((-213374730240 : ℤ) : ℂ) * mo 15 q + ((9413591040 : ℤ) : ℂ) * mo 17 q + ((-220200960 : ℤ) : ℂ) * mo 19 q + ((2097152 : ℤ) : ℂ) * mo 21 q
noncomputable def T22 (q : ℂ) : ℂ := ((-28158588057600 : ℤ) : ℂ) * mo 0 q + ((619488937267200 : ℤ) : ℂ) * mo 2 q + ((-2064963124224000 : ℤ) : ℂ) * mo 4 q + ((2477955749068800 : ℤ) : ℂ) * mo 6 q + ((-1415974713753600 : ℤ) : ℂ) * mo 8 q + ((440525466501120 : ℤ) : ℂ) * mo 10 q + ((-80095539363840 : ℤ) : ℂ) * mo 12 q + ((8801707622400 : ℤ) : ℂ) * mo 14 q + ((-586780508160 : ℤ) : ℂ) * mo 16 q + ((23011000320 : ℤ) : ℂ) * mo 18 q + ((-484442112 : ℤ) : ℂ) * mo 20 q + ((4194304 : ℤ) : ℂ) * mo 22 q
noncomputable def T23 (q : ℂ) : ℂ := ((-1295295050649600 : ℤ) : ℂ) * mo 1 q + ((9498830371430400 : ℤ) : ℂ) * mo 3 q + ((-18997660742860800 : ℤ) : ℂ) * mo 5 q + ((16283709208166400 : ℤ) : ℂ) * mo 7 q + ((-7237204092518400 : ℤ) : ℂ) * mo 9 q + ((1842197405368320 : ℤ) : ℂ) * mo 11 q + ((-283414985441280 : ℤ) : ℂ) * mo 13 q + ((26991903375360 : ℤ) : ℂ) * mo 15 q + ((-1587759022080 : ℤ) : ℂ) * mo 17 q + ((55710842880 : ℤ) : ℂ) * mo 19 q + ((-1061158912 : ℤ) : ℂ) * mo 21 q + ((8388608 : ℤ) : ℂ) * mo 23 q
noncomputable def T24 (q : ℂ) : ℂ := ((1295295050649600 : ℤ) : ℂ) * mo 0 q + ((-31087081215590400 : ℤ) : ℂ) * mo 2 q + ((113985964457164800 : ℤ) : ℂ) * mo 4 q + ((-151981285942886400 : ℤ) : ℂ) * mo 6 q + ((97702255248998400 : ℤ) : ℂ) * mo 8 q + ((-34738579644088320 : ℤ) : ℂ) * mo 10 q + ((7368789621473280 : ℤ) : ℂ) * mo 12 q + ((-971708521512960 : ℤ) : ℂ) * mo 14 q + ((80975710126080 : ℤ) : ℂ) * mo 16 q + ((-4234024058880 : ℤ) : ℂ) * mo 18 q + ((133706022912 : ℤ) : ℂ) * mo 20 q + ((-2315255808 : ℤ) : ℂ) * mo 22 q + ((16777216 : ℤ) : ℂ) * mo 24 q
theorem st0 (q : ℂ) : q * T0 q = T1 q - 1 := by
  simp only [T0, T1]
  push_cast
  linear_combination (1) * mr0 q
theorem st1 (q : ℂ) : q * T1 q = T2 q - 0 := by
  simp only [T1, T2]
  push_cast
  linear_combination (2) * mr1 q
theorem st2 (q : ℂ) : q * T2 q = T3 q - (-2) := by
  simp only [T2, T3]
  push_cast
  linear_combination (-2) * mr0 q + (4) * mr2 q
theorem st3 (q : ℂ) : q * T3 q = T4 q - 0 := by
  simp only [T3, T4]
  push_cast
  linear_combination (-12) * mr1 q + (8) * mr3 q
theorem st4 (q : ℂ) : q * T4 q = T5 q - 12 := by
  simp only [T4, T5]
  push_cast
  linear_combination (12) * mr0 q + (-48) * mr2 q + (16) * mr4 q
theorem st5 (q : ℂ) : q * T5 q = T6 q - 0 := by
  simp only [T5, T6]
  push_cast
  linear_combination (120) * mr1 q + (-160) * mr3 q + (32) * mr5 q
theorem st6 (q : ℂ) : q * T6 q = T7 q - (-120) := by
  simp only [T6, T7]
  push_cast
  linear_combination (-120) * mr0 q + (720) * mr2 q + (-480) * mr4 q + (64) * mr6 q
theorem st7 (q : ℂ) : q * T7 q = T8 q - 0 := by
  simp only [T7, T8]
  push_cast
  linear_combination (-1680) * mr1 q + (3360) * mr3 q + (-1344) * mr5 q + (128) * mr7 q
theorem st8 (q : ℂ) : q * T8 q = T9 q - 1680 := by
  simp only [T8, T9]
  push_cast
  linear_combination (1680) * mr0 q + (-13440) * mr2 q + (13440) * mr4 q + (-3584) * mr6 q + (256) * mr8 q
theorem st9 (q : ℂ) : q * T9 q = T10 q - 0 := by
  simp only [T9, T10]
  push_cast
  linear_combination (30240) * mr1 q + (-80640) * mr3 q + (48384) * mr5 q + (-9216) * mr7 q + (512) * mr9 q
theorem st10 (q : ℂ) : q * T10 q = T11 q - (-30240) := by
  simp only [T10, T11]
  push_cast
  linear_combination (-30240) * mr0 q + (302400) * mr2 q + (-403200) * mr4 q + (161280) * mr6 q + (-23040) * mr8 q + (1024) * mr10 q
theorem st11 (q : ℂ) : q * T11 q = T12 q - 0 := by
  simp only [T11, T12]
  push_cast
  linear_combination (-665280) * mr1 q + (2217600) * mr3 q + (-1774080) * mr5 q + (506880) * mr7 q + (-56320) * mr9 q + (2048) * mr11 q
theorem st12 (q : ℂ) : q * T12 q = T13 q - 665280 := by
  simp only [T12, T13]
  push_cast
  linear_combination (665280) * mr0 q + (-7983360) * mr2 q + (13305600) * mr4 q + (-7096320) * mr6 q + (1520640) * mr8 q + (-135168) * mr10 q + (4096) * mr12 q
theorem st13 (q : ℂ) : q * T13 q = T14 q - 0 := by
  simp only [T13, T14]
  push_cast
  linear_combination (17297280) * mr1 q + (-69189120) * mr3 q + (69189120) * mr5 q + (-26357760) * mr7 q + (4392960) * mr9 q + (-319488) * mr11 q + (8192) * mr13 q
theorem st14 (q : ℂ) : q * T14 q = T15 q - (-17297280) := by
  simp only [T14, T15]
  push_cast
  linear_combination (-17297280) * mr0 q + (242161920) * mr2 q + (-484323840) * mr4 q + (322882560) * mr6 q + (-92252160) * mr8 q + (12300288) * mr10 q + (-745472) * mr12 q + (16384) * mr14 q
theorem st15 (q : ℂ) : q * T15 q = T16 q - 0 := by
  simp only [T15, T16]
  push_cast
  linear_combination (-518918400) * mr1 q + (2421619200) * mr3 q + (-2905943040) * mr5 q + (1383782400) * mr7 q + (-307507200) * mr9 q + (33546240) * mr11 q + (-1720320) * mr13 q + (32768) * mr15 q
theorem st16 (q : ℂ) : q * T16 q = T17 q - 518918400 := by
  simp only [T16, T17]
  push_cast
  linear_combination (518918400) * mr0 q + (-8302694400) * mr2 q + (19372953600) * mr4 q + (-15498362880) * mr6 q + (5535129600) * mr8 q + (-984023040) * mr10 q + (89456640) * mr12 q + (-3932160) * mr14 q + (65536) * mr16 q
theorem st17 (q : ℂ) : q * T17 q = T18 q - 0 := by
  simp only [T17, T18]
  push_cast
  linear_combination (17643225600) * mr1 q + (-94097203200) * mr3 q + (131736084480) * mr5 q + (-75277762560) * mr7 q + (20910489600) * mr9 q + (-3041525760) * mr11 q + (233963520) * mr13 q + (-8912896) * mr15 q + (131072) * mr17 q
theorem st18 (q : ℂ) : q * T18 q = T19 q - (-17643225600) := by
  simp only [T18, T19]
  push_cast
  linear_combination (-17643225600) * mr0 q + (317578060800) * mr2 q + (-846874828800) * mr4 q + (790416506880) * mr6 q + (-338749931520) * mr8 q + (75277762560) * mr10 q + (-9124577280) * mr12 q + (601620480) * mr14 q + (-20054016) * mr16 q + (262144) * mr18 q
theorem st19 (q : ℂ) : q * T19 q = T20 q - 0 := by
  simp only [T19, T20]
  push_cast
  linear_combination (-670442572800) * mr1 q + (4022655436800) * mr3 q + (-6436248698880) * mr5 q + (4290832465920) * mr7 q + (-1430277488640) * mr9 q + (260050452480) * mr11 q + (-26671841280) * mr13 q + (1524105216) * mr15 q + (-44826624) * mr17 q + (524288) * mr19 q
theorem st20 (q : ℂ) : q * T20 q = T21 q - 670442572800 := by
  simp only [T20, T21]
  push_cast
  linear_combination (670442572800) * mr0 q + (-13408851456000) * mr2 q + (40226554368000) * mr4 q + (-42908324659200) * mr6 q + (21454162329600) * mr8 q + (-5721109954560) * mr10 q + (866834841600) * mr12 q + (-76205260800) * mr14 q + (3810263040) * mr16 q + (-99614720) * mr18 q + (1048576) * mr20 q
theorem st21 (q : ℂ) : q * T21 q = T22 q - 0 := by
  simp only [T21, T22]
  push_cast
  linear_combination (28158588057600) * mr1 q + (-187723920384000) * mr3 q + (337903056691200) * mr5 q + (-257449947955200) * mr7 q + (100119424204800) * mr9 q + (-21844238008320) * mr11 q + (2800543334400) * mr13 q + (-213374730240) * mr15 q + (9413591040) * mr17 q + (-220200960) * mr19 q + (2097152) * mr21 q
theorem st22 (q : ℂ) : q * T22 q = T23 q - (-28158588057600) := by
  simp only [T22, T23]
  push_cast
  linear_combination (-28158588057600) * mr0 q + (619488937267200) * mr2 q + (-2064963124224000) * mr4 q + (2477955749068800) * mr6 q + (-1415974713753600) * mr8 q + (440525466501120) * mr10 q + (-80095539363840) * mr12 q + (8801707622400) * mr14 q + (-586780508160) * mr16 q + (23011000320) * mr18 q + (-484442112) * mr20 q + (4194304) * mr22 q
theorem st23 (q : ℂ) : q * T23 q = T24 q - 0 := by
  simp only [T23, T24]
  push_cast
  linear_combination (-1295295050649600) * mr1 q + (9498830371430400) * mr3 q + (-18997660742860800) * mr5 q + (16283709208166400) * mr7 q + (-7237204092518400) * mr9 q + (1842197405368320) * mr11 q + (-283414985441280) * mr13 q + (26991903375360) * mr15 q + (-1587759022080) * mr17 q + (55710842880) * mr19 q + (-1061158912) * mr21 q + (8388608) * mr23 q
theorem tb3 {q : ℂ} (hq : q.re ≤ 0) : ‖T3 q‖ ≤ 10 := by
  refine (show ‖T3 q‖ ≤ _ from norm_add_le_of_le (cb (-12) ((mo_le 1 hq).trans mu1) (B := 6) (by norm_num)) (cb (8) ((mo_le 3 hq).trans mu3) (B := 4) (by norm_num))).trans ?_
  norm_num
theorem tb9 {q : ℂ} (hq : q.re ≤ 0) : ‖T9 q‖ ≤ 137616 := by
  refine (show ‖T9 q‖ ≤ _ from norm_add_le_of_le (norm_add_le_of_le (norm_add_le_of_le (norm_add_le_of_le (cb (30240) ((mo_le 1 hq).trans mu1) (B := 15120) (by norm_num)) (cb (-80640) ((mo_le 3 hq).trans mu3) (B := 40320) (by norm_num))) (cb (48384) ((mo_le 5 hq).trans mu5) (B := 48384) (by norm_num))) (cb (-9216) ((mo_le 7 hq).trans mu7) (B := 27648) (by norm_num))) (cb (512) ((mo_le 9 hq).trans mu9) (B := 6144) (by norm_num))).trans ?_
  norm_num
theorem tb24 {q : ℂ} (hq : q.re ≤ 0) : ‖T24 q‖ ≤ 4721920389440077824 := by
  refine (show ‖T24 q‖ ≤ _ from norm_add_le_of_le (norm_add_le_of_le (norm_add_le_of_le (norm_add_le_of_le (norm_add_le_of_le (norm_add_le_of_le (norm_add_le_of_le (norm_add_le_of_le (norm_add_le_of_le (norm_add_le_of_le (norm_add_le_of_le (norm_add_le_of_le (cb (1295295050649600) ((mo_le 0 hq).trans mu0) (B := 1152812595078144) (by norm_num)) (cb (-31087081215590400) ((mo_le 2 hq).trans mu2) (B := 13833751140937728) (by norm_num))) (cb (113985964457164800) ((mo_le 4 hq).trans mu4) (B := 76085631275157504) (by norm_num))) (cb (-151981285942886400) ((mo_le 6 hq).trans mu6) (B := 253618770917191680) (by norm_num))) (cb (97702255248998400) ((mo_le 8 hq).trans mu8) (B := 570642234563681280) (by norm_num))) (cb (-34738579644088320) ((mo_le 10 hq).trans mu10) (B := 913027575301890048) (by norm_num))) (cb (7368789621473280) ((mo_le 12 hq).trans mu12) (B := 1065198837852205056) (by norm_num))) (cb (-971708521512960) ((mo_le 14 hq).trans mu14) (B := 913027575301890048) (by norm_num))) (cb (80975710126080) ((mo_le 16 hq).trans mu16) (B := 570642234563681280) (by norm_num))) (cb (-4234024058880) ((mo_le 18 hq).trans mu18) (B := 253618770917191680) (by norm_num))) (cb (133706022912) ((mo_le 20 hq).trans mu20) (B := 76085631275157504) (by norm_num))) (cb (-2315255808) ((mo_le 22 hq).trans mu22) (B := 13833751140937728) (by norm_num))) (cb (16777216) ((mo_le 24 hq).trans mu24) (B := 1152812595078144) (by norm_num))).trans ?_
  norm_num
theorem T0_eq (q : ℂ) : T0 q = mo 0 q := by simp [T0]
theorem ep0 {p q : ℂ} (h : p * q = 1) : T0 q = p^2 * T2 q - (1) * p := by
  linear_combination p * st0 q + p^2 * st1 q - T0 q * h - p * T1 q * h
theorem ep2 {p q : ℂ} (h : p * q = 1) : T2 q = p^2 * T4 q - (-2) * p := by
  linear_combination p * st2 q + p^2 * st3 q - T2 q * h - p * T3 q * h
theorem ep4 {p q : ℂ} (h : p * q = 1) : T4 q = p^2 * T6 q - (12) * p := by
  linear_combination p * st4 q + p^2 * st5 q - T4 q * h - p * T5 q * h
theorem ep6 {p q : ℂ} (h : p * q = 1) : T6 q = p^2 * T8 q - (-120) * p := by
  linear_combination p * st6 q + p^2 * st7 q - T6 q * h - p * T7 q * h
theorem ep8 {p q : ℂ} (h : p * q = 1) : T8 q = p^2 * T10 q - (1680) * p := by
  linear_combination p * st8 q + p^2 * st9 q - T8 q * h - p * T9 q * h
theorem ep10 {p q : ℂ} (h : p * q = 1) : T10 q = p^2 * T12 q - (-30240) * p := by
  linear_combination p * st10 q + p^2 * st11 q - T10 q * h - p * T11 q * h
theorem ep12 {p q : ℂ} (h : p * q = 1) : T12 q = p^2 * T14 q - (665280) * p := by
  linear_combination p * st12 q + p^2 * st13 q - T12 q * h - p * T13 q * h
theorem ep14 {p q : ℂ} (h : p * q = 1) : T14 q = p^2 * T16 q - (-17297280) * p := by
  linear_combination p * st14 q + p^2 * st15 q - T14 q * h - p * T15 q * h
theorem ep16 {p q : ℂ} (h : p * q = 1) : T16 q = p^2 * T18 q - (518918400) * p := by
  linear_combination p * st16 q + p^2 * st17 q - T16 q * h - p * T17 q * h
theorem ep18 {p q : ℂ} (h : p * q = 1) : T18 q = p^2 * T20 q - (-17643225600) * p := by
  linear_combination p * st18 q + p^2 * st19 q - T18 q * h - p * T19 q * h
theorem ep20 {p q : ℂ} (h : p * q = 1) : T20 q = p^2 * T22 q - (670442572800) * p := by
  linear_combination p * st20 q + p^2 * st21 q - T20 q * h - p * T21 q * h
theorem ep22 {p q : ℂ} (h : p * q = 1) : T22 q = p^2 * T24 q - (-28158588057600) * p := by
  linear_combination p * st22 q + p^2 * st23 q - T22 q * h - p * T23 q * h
theorem ex2 {p q : ℂ} (h : p * q = 1) : mo 0 q = (-1) * p * (p^2)^0 + (p^2)^1 * T2 q := by
  rw [← T0_eq]
  linear_combination (p^2)^0 * ep0 h
theorem ex8 {p q : ℂ} (h : p * q = 1) : mo 0 q = (-1) * p * (p^2)^0 + (2) * p * (p^2)^1 + (-12) * p * (p^2)^2 + (120) * p * (p^2)^3 + (p^2)^4 * T8 q := by
  rw [← T0_eq]
  linear_combination (p^2)^0 * ep0 h + (p^2)^1 * ep2 h + (p^2)^2 * ep4 h + (p^2)^3 * ep6 h
theorem ex24 {p q : ℂ} (h : p * q = 1) : mo 0 q = (-1) * p * (p^2)^0 + (2) * p * (p^2)^1 + (-12) * p * (p^2)^2 + (120) * p * (p^2)^3 + (-1680) * p * (p^2)^4 + (30240) * p * (p^2)^5 + (-665280) * p * (p^2)^6 + (17297280) * p * (p^2)^7 + (-518918400) * p * (p^2)^8 + (17643225600) * p * (p^2)^9 + (-670442572800) * p * (p^2)^10 + (28158588057600) * p * (p^2)^11 + (p^2)^12 * T24 q := by
  rw [← T0_eq]
  linear_combination (p^2)^0 * ep0 h + (p^2)^1 * ep2 h + (p^2)^2 * ep4 h + (p^2)^3 * ep6 h + (p^2)^4 * ep8 h + (p^2)^5 * ep10 h + (p^2)^6 * ep12 h + (p^2)^7 * ep14 h + (p^2)^8 * ep16 h + (p^2)^9 * ep18 h + (p^2)^10 * ep20 h + (p^2)^11 * ep22 h

end Fad
end Verif
