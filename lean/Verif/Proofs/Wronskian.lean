import Verif.Model.Bessel
import Verif.Exact
import Verif.Spec

/-!
# Lemmas on the fractional-order Bessel functions in exact arithmetic

The model is run in exact real arithmetic (`XR`, see `Verif.Exact`: a result is `real r`, or `undef` if a division by zero or the square
root of a negative number contributed to it).
-/

namespace Verif
open XR

/-! ## the invariant of the recurrences -/

theorem jyUp_inv (xmu xi2 y0 y1 : XR) : ∀ (k : ℕ) (a b : ℝ), jyUp xmu xi2 y0 y1 k = (real a, real b) → ∃ c d, y0 = real c ∧ y1 = real d
  | 0, a, b, h => by injection h with h1 h2; exact ⟨a, b, h1, h2⟩
  | k+1, a, b, h => by
    injection h with h1 h2
    obtain ⟨x, y, -, e, -⟩ := sub_inv h2
    exact jyUp_inv xmu xi2 y0 y1 k y a (Prod.ext e h1)

theorem ikUp_inv (xmu xi2 y0 y1 : XR) : ∀ (k : ℕ) (a b : ℝ), ikUp xmu xi2 y0 y1 k = (real a, real b) → ∃ c d, y0 = real c ∧ y1 = real d
  | 0, a, b, h => by injection h with h1 h2; exact ⟨a, b, h1, h2⟩
  | k+1, a, b, h => by
    injection h with h1 h2
    obtain ⟨x, y, -, e, -⟩ := add_inv h2
    exact ikUp_inv xmu xi2 y0 y1 k y a (Prod.ext e h1)

/-- the upward recurrence in ℝ -/
noncomputable def upR (s mu xi y0 y1 : ℝ) : ℕ → ℝ × ℝ
  | 0 => (y0, y1)
  | k+1 => ((upR s mu xi y0 y1 k).2, (mu + (k+1)) * (2 * xi) * (upR s mu xi y0 y1 k).2 + s * (upR s mu xi y0 y1 k).1)

theorem jyUp_real (mu xi y0 y1 : ℝ) : ∀ k, jyUp (real mu) (real (2 * xi)) (real y0) (real y1) k =
    (real (upR (-1) mu xi y0 y1 k).1, real (upR (-1) mu xi y0 y1 k).2)
  | 0 => rfl
  | k+1 => by
    have ih := jyUp_real mu xi y0 y1 k
    unfold jyUp
    simp only [ih, ofNat_real, add_real, mul_real, sub_real, upR]
    congr 2
    push_cast; ring

theorem ikUp_real (mu xi y0 y1 : ℝ) : ∀ k, ikUp (real mu) (real (2 * xi)) (real y0) (real y1) k =
    (real (upR 1 mu xi y0 y1 k).1, real (upR 1 mu xi y0 y1 k).2)
  | 0 => rfl
  | k+1 => by
    have ih := ikUp_real mu xi y0 y1 k
    unfold ikUp
    simp only [ih, ofNat_real, add_real, mul_real, upR]
    congr 2
    push_cast; ring

/-- the downward recurrence in ℝ -/
noncomputable def downR (s xi : ℝ) : ℕ → ℝ → ℝ → ℝ → ℝ × ℝ
  | 0, j, j', _ => (j, j')
  | k+1, j, j', fact => downR s xi k (fact * j + j') ((fact - xi) * (fact * j + j') + s * j) (fact - xi)

theorem jyDown_real (xi : ℝ) : ∀ (k : ℕ) (j j' fact : ℝ), ∃ g, jyDown (real xi) k (real j, real j', real fact) =
    (real (downR (-1) xi k j j' fact).1, real (downR (-1) xi k j j' fact).2, g)
  | 0, j, j', fact => ⟨_, rfl⟩
  | k+1, j, j', fact => by
    unfold jyDown
    simp only [add_real, mul_real, sub_real]
    obtain ⟨g, h⟩ := jyDown_real xi k (fact * j + j') ((fact - xi) * (fact * j + j') - j) (fact - xi)
    refine ⟨g, h.trans ?_⟩
    simp only [downR, neg_one_mul, ← sub_eq_add_neg]

theorem ikDown_real (xi : ℝ) : ∀ (k : ℕ) (j j' fact : ℝ), ∃ g, ikDown (real xi) k (real j, real j', real fact) =
    (real (downR 1 xi k j j' fact).1, real (downR 1 xi k j j' fact).2, g)
  | 0, j, j', fact => ⟨_, rfl⟩
  | k+1, j, j', fact => by
    unfold ikDown
    simp only [add_real, mul_real, sub_real]
    obtain ⟨g, h⟩ := ikDown_real xi k (fact * j + j') ((fact - xi) * (fact * j + j') + j) (fact - xi)
    refine ⟨g, h.trans ?_⟩
    simp only [downR, one_mul]

/-- the quantity `J·Y' - J'·Y` is the same at order `mu + k` and at order `mu` (`s = -1` for `J, Y`; `s = 1` for `I, K`) -/
theorem wronskian_inv (s : ℝ) (mu xi y0 y1 : ℝ) : ∀ (k : ℕ) (j j' : ℝ),
    j * ((mu + k) * xi * (upR s mu xi y0 y1 k).1 - (upR s mu xi y0 y1 k).2) - j' * (upR s mu xi y0 y1 k).1 =
    (downR s xi k j j' ((mu + k) * xi)).1 * (mu * xi * y0 - y1) - (downR s xi k j j' ((mu + k) * xi)).2 * y0
  | 0, j, j' => by simp [upR, downR]
  | k+1, j, j' => by
    have ih := wronskian_inv s mu xi y0 y1 k ((mu + (k+1)) * xi * j + j') (((mu + (k+1)) * xi - xi) * ((mu + (k+1)) * xi * j + j') + s * j)
    have e : (mu + (k+1)) * xi - xi = (mu + k) * xi := by ring
    simp only [upR, downR, Nat.cast_add, Nat.cast_one]
    rw [e] at ih ⊢
    rw [← ih]
    ring

/-! ## the normalisation at the reduced order -/

theorem jySmall_norm {x xmu xmu2 xi xi2 w f a b c : XR} {rb rc ra rmu rxi rf rw' : ℝ}
    (h : jySmall x xmu xmu2 xi xi2 w f = .ok (a, b, c)) (ha : a = real ra) (hb : b = real rb) (hc : c = real rc)
    (hm : xmu = real rmu) (hx : xi = real rxi) (hf : f = real rf) (hw : w = real rw') :
    ra * ((rmu * rxi * rb - rc) - rf * rb) = rw' := by
  unfold jySmall at h
  simp only [bind, Except.bind, pure, Except.pure] at h
  split at h
  · cases h
  · injection h with h
    injection h with h1 h2
    injection h2 with h2 h3
    rw [h2, h3, hb, hc, hm, hx, hf, hw] at h1
    simp only [mul_real, sub_real] at h1
    rw [ha] at h1
    obtain ⟨p, q, e1, e2, hq, e3⟩ := div_inv h1
    cases e1; cases e2
    rw [e3, div_mul_cancel₀ _ hq]

theorem jyLarge_norm {x xmu xmu2 xi w f rjl a b c : XR} {rb rc ra rmu rxi rf rw' : ℝ}
    (h : jyLarge x xmu xmu2 xi w f rjl = .ok (a, b, c)) (ha : a = real ra) (hb : b = real rb) (hc : c = real rc)
    (hm : xmu = real rmu) (hx : xi = real rxi) (hf : f = real rf) (hw : w = real rw') :
    ra * ((rmu * rxi * rb - rc) - rf * rb) = rw' := by
  unfold jyLarge at h
  simp only [bind, Except.bind, pure, Except.pure] at h
  split at h
  · cases h
  · rename_i v hv
    obtain ⟨p, q⟩ := v
    injection h with h
    injection h with h1 h2
    injection h2 with h2 h3
    -- `b = gam * a`, so `gam` is defined
    rw [h1] at h2
    rw [h1, h2] at h3
    have h2' : (p - f) / q * a = b := h2
    rw [ha, hb] at h2'
    obtain ⟨gam, ra', eg, era, hga⟩ := mul_inv h2'
    cases era
    obtain ⟨pf, qr, e1, e2, hq, eg'⟩ := div_inv eg
    obtain ⟨pr, _, e3, e4, e5⟩ := sub_inv e1
    rw [hf] at e4; cases e4
    -- `c = xmu * xi * b - b * (p + q / gam)`
    have h3' : xmu * xi * b - b * (p + q / ((p - f) / q)) = c := h3
    rw [eg, e3, e2, hm, hx, hb, hc] at h3'
    obtain ⟨_, t, f1, f2, f3⟩ := sub_inv h3'
    cases f1
    obtain ⟨_, t2, f4, f5, f6⟩ := mul_inv f2
    cases f4
    obtain ⟨_, t3, f7, f8, f9⟩ := add_inv f5
    cases f7
    obtain ⟨_, _, g1, g2, hgam, g3⟩ := div_inv f8
    cases g1; cases g2
    -- `a² = w / ((p - f) gam + q)`
    have h1' : (if Arith.lt rjl (0.0 : XR) = true then -(Arith.sqrt (w / ((p - f) * ((p - f) / q) + q)))
      else Arith.sqrt (w / ((p - f) * ((p - f) / q) + q))) = a := h1
    rw [ha] at h1'
    have hsq : ∃ t : ℝ, Arith.sqrt (w / ((p - f) * ((p - f) / q) + q)) = real t ∧ ra * ra = t * t := by
      split at h1'
      · obtain ⟨t, e, e'⟩ := neg_inv h1'
        exact ⟨t, e, by rw [e']; ring⟩
      · exact ⟨ra, h1', rfl⟩
    obtain ⟨t0, k1, k2⟩ := hsq
    obtain ⟨t1, k3, k4, k5⟩ := sqrt_inv k1
    rw [eg, e1, e2, hw, mul_real, add_real] at k3
    obtain ⟨_, _, k6, k7, hden, k8⟩ := div_inv k3
    cases k6; cases k7
    have k9 : ra * ra = rw' / (pf * gam + qr) := by rw [k2, k5, Real.mul_self_sqrt k4, k8]
    have k10 : ra * ra * (pf * gam + qr) = rw' := by rw [k9, div_mul_cancel₀ _ hden]
    rw [f3, f6, f9, g3, ← k10, hga]
    have : pf = pr - rf := e5
    have e6 : gam * qr = pf := by rw [eg', div_mul_cancel₀ _ hq]
    have e7 : gam * (qr / gam) = qr := by field_simp
    have e8 : pr = pf + rf := by linarith
    rw [e8]
    linear_combination (ra * ra) * e7

end Verif
