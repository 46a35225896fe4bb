import Verif.Tables.BesselX
import Verif.Proofs.Rel
import Verif.Proofs.BesselLeft2

/-! Rounding errors of `j0`, `j1`, `i0`, `i1` near the origin. -/

namespace Verif
namespace BesX
open FlErr F64

/-- Horner scheme `c + t * h` -/
def hornE (t : Ex) : List Ex → Ex
  | [] => .lit 0 1
  | [c] => c
  | c :: d :: cs => .add c (.mul t (hornE t (d :: cs)))

/-- Horner scheme `h * t + c` -/
def polyE (t : Ex) : List Ex → Ex
  | [] => .lit 0 1
  | [c] => c
  | c :: d :: cs => .add (.mul (polyE t (d :: cs)) t) c

theorem hornE_F (ρ : ℕ → F64) (t : Ex) : ∀ (cs : List Ex) (c : Ex), evF ρ (hornE t (c :: cs)) = hornerL (evF ρ t) ((c :: cs).map (evF ρ))
  | [], c => by rw [hornE]; simp only [List.map, hornerL]
  | d :: cs, c => by
    have ih := hornE_F ρ t cs d
    rw [hornE, evF, evF, ih]
    simp only [List.map, hornerL]

theorem polyE_F (ρ : ℕ → F64) (t : Ex) : ∀ (cs : List Ex) (c : Ex), evF ρ (polyE t (c :: cs)) = poly (evF ρ t) ((c :: cs).map (evF ρ))
  | [], c => by rw [polyE]; simp only [List.map, poly]
  | d :: cs, c => by
    have ih := polyE_F ρ t cs d
    rw [polyE, evF, evF, ih]
    simp only [List.map, poly]

theorem hornE_R (ρ : ℕ → ℝ) (t : Ex) : ∀ (cs : List Ex) (c : Ex), evR ρ (hornE t (c :: cs)) = hornerL (evR ρ t) ((c :: cs).map (evR ρ))
  | [], c => by rw [hornE]; simp only [List.map, hornerL]
  | d :: cs, c => by
    have ih := hornE_R ρ t cs d
    rw [hornE, evR, evR, ih]
    simp only [List.map, hornerL]

theorem polyE_R (ρ : ℕ → ℝ) (t : Ex) : ∀ (cs : List Ex) (c : Ex), evR ρ (polyE t (c :: cs)) = poly (evR ρ t) ((c :: cs).map (evR ρ))
  | [], c => by rw [polyE]; simp only [List.map, poly]
  | d :: cs, c => by
    have ih := polyE_R ρ t cs d
    rw [polyE, evR, evR, ih]
    simp only [List.map, poly]

theorem hornE_F' {ρ : ℕ → F64} {t : Ex} {cs : List Ex} {l : List F64} (hl : cs.map (evF ρ) = l) (h : cs ≠ []) : evF ρ (hornE t cs) = hornerL (evF ρ t) l := by
  cases cs with
  | nil => exact absurd rfl h
  | cons c cs => rw [← hl]; exact hornE_F ρ t cs c
theorem hornE_R' {ρ : ℕ → ℝ} {t : Ex} {cs : List Ex} {l : List ℝ} (hl : cs.map (evR ρ) = l) (h : cs ≠ []) : evR ρ (hornE t cs) = hornerL (evR ρ t) l := by
  cases cs with
  | nil => exact absurd rfl h
  | cons c cs => rw [← hl]; exact hornE_R ρ t cs c
theorem polyE_F' {ρ : ℕ → F64} {t : Ex} {cs : List Ex} {l : List F64} (hl : cs.map (evF ρ) = l) (h : cs ≠ []) : evF ρ (polyE t cs) = poly (evF ρ t) l := by
  cases cs with
  | nil => exact absurd rfl h
  | cons c cs => rw [← hl]; exact polyE_F ρ t cs c
theorem polyE_R' {ρ : ℕ → ℝ} {t : Ex} {cs : List Ex} {l : List ℝ} (hl : cs.map (evR ρ) = l) (h : cs ≠ []) : evR ρ (polyE t cs) = poly (evR ρ t) l := by
  cases cs with
  | nil => exact absurd rfl h
  | cons c cs => rw [← hl]; exact polyE_R ρ t cs c

/-! ## pieces -/

/-- the check `crit` on the bounds computed by `F` on `n` adjacent intervals of width `w` (units) from `a` on -/
def pieces (F : B → Option B) (crit : B → Bool) (w : ℕ) : ℕ → ℤ → Bool
  | 0, _ => true
  | n + 1, a => (match F ⟨a, a + w, 0⟩ with
    | some r => crit r
    | none => false) && pieces F crit w n (a + w)

theorem pieces_sound {f : F64 → F64} {g : ℝ → ℝ} {F : B → Option B} {crit : B → Bool} {w : ℕ}
    (hF : ∀ {x : F64} {X : ℝ} {b r : B}, FlErr.In x X b → F b = some r → FlErr.In (f x) (g X) r) {x : F64} (hf : x.isFin = true) :
    ∀ (n : ℕ) (a : ℤ), 0 < n → pieces F crit w n a = true → a / FlErr.U ≤ x.val → x.val ≤ ((a + w * n : ℤ) : ℝ) / FlErr.U →
      ∃ r, FlErr.In (f x) (g x.val) r ∧ crit r = true
  | 0, a, h0, h, h1, h2 => absurd h0 (by simp)
  | n + 1, a, h0, h, h1, h2 => by
    simp only [pieces, Bool.and_eq_true] at h
    obtain ⟨h3, h4⟩ := h
    by_cases hx : x.val ≤ ((a + w : ℤ) : ℝ) / FlErr.U
    · split at h3
      · rename_i r hr
        refine ⟨r, hF ⟨hf, h1, ?_, by simp⟩ hr, h3⟩
        push_cast at hx ⊢; exact hx
      · exact absurd h3 (by simp)
    · have hn : 0 < n := by
        rcases Nat.eq_zero_or_pos n with rfl | h
        · exfalso; apply hx; simpa using h2
        · exact h
      refine pieces_sound hF hf n (a + w) hn h4 (le_of_not_ge hx) (h2.trans (le_of_eq ?_))
      push_cast; ring

/-- relative error `1/K`, value at most `2^40` -/
def relC (K : ℕ) (r : B) : Bool := decide ((r.e : ℤ) * (K + 1) ≤ r.l) && decide (0 < r.l) && decide (r.u ≤ 2 ^ 200)
/-- absolute error `e` units -/
def absC (e : ℕ) (r : B) : Bool := decide (r.e ≤ e)

theorem relC_sound {a : F64} {A : ℝ} {K : ℕ} (hK : 0 < K) {r : B} (h : FlErr.In a A r) (hc : relC K r = true) : Rel a A (1 / K) ∧ a.val ≤ 2 ^ 40 := by
  simp only [relC, Bool.and_eq_true, decide_eq_true_eq] at hc
  have hU := FlErr.U_pos
  have hK' : (0:ℝ) < K := by exact_mod_cast hK
  have h1 : (r.e : ℝ) * (K + 1) ≤ r.l := by exact_mod_cast hc.1.1
  have h2 : (0:ℝ) < r.l := by exact_mod_cast hc.1.2
  have he := scale_err h.err
  have hl := scale_lo h.lo
  have hA : a.val - |a.val - A| ≤ A := by have := le_abs_self (a.val - A); linarith
  have h3 : (r.l : ℝ) - r.e ≤ A * FlErr.U := by
    have := mul_le_mul_of_nonneg_right hA hU.le
    linarith
  have h4 : (r.e : ℝ) * K ≤ A * FlErr.U := by nlinarith
  have hA0 : 0 < A := by
    have : (0:ℝ) < A * FlErr.U := by
      rcases Nat.eq_zero_or_pos r.e with h0 | h0
      · rw [h0] at h3; push_cast at h3; linarith
      · have : (0:ℝ) < r.e := by exact_mod_cast h0
        have : (0:ℝ) < r.e * K := by positivity
        linarith
    exact pos_of_mul_pos_left this hU.le
  refine ⟨⟨h.fin, hA0, ?_⟩, h.hi.trans ?_⟩
  swap
  · have : (r.u:ℝ) ≤ 2 ^ 200 := by exact_mod_cast hc.2
    rw [div_le_iff₀ hU]
    refine this.trans ?_
    unfold FlErr.U; norm_num
  rw [div_mul_eq_mul_div, one_mul, le_div_iff₀ hK']
  have := mul_le_mul_of_nonneg_right he hK'.le
  have h5 : |a.val - A| * K * FlErr.U ≤ A * FlErr.U := by linarith
  exact le_of_mul_le_mul_right h5 hU

theorem absC_sound {a : F64} {A : ℝ} {e : ℕ} {r : B} (h : FlErr.In a A r) (hc : absC e r = true) : a.isFin = true ∧ |a.val - A| ≤ e / FlErr.U := by
  simp only [absC, decide_eq_true_eq] at hc
  refine ⟨h.fin, h.err.trans ?_⟩
  have : (r.e:ℝ) ≤ e := by exact_mod_cast hc
  have := FlErr.U_pos
  gcongr

/-! ## the expressions near the origin; variable 0 is `x²`, variable 1 is `x` -/

def i0nE : Ex := polyE (.var 0) I0Px
def i0dE : Ex := polyE (.sub (.lit 2250 1) (.var 0)) I0Qx
def i1nE : Ex := polyE (.var 0) I1Px
def i1dE : Ex := polyE (.sub (.lit 2250 1) (.var 0)) I1Qx
def i0lE : Ex := .div i0nE i0dE
def j0lE : Ex := .div (.mul (.mul (hornE (.sub (.lit 640 1) (.var 0)) J0Rx) (.sub (.var 0) (.lit 5783185962946785 15)))
  (.sub (.var 0) (.lit 3047126234366209 14))) (hornE (.var 0) J0Sx)
def j1lE : Ex := .div (.mul (.mul (.mul (.var 1) (hornE (.sub (.lit 640 1) (.var 0)) J1Rx)) (.sub (.var 0) (.lit 1468197064212389 14)))
  (.sub (.var 0) (.lit 492184563216946 13))) (hornE (.var 0) J1Sx)

def envB (y x : B) : ℕ → B := fun i => if i = 0 then y else x
def envF (x : F64) : ℕ → F64 := fun i => if i = 0 then x * x else x
noncomputable def envR (x : ℝ) : ℕ → ℝ := fun i => if i = 0 then x * x else x

/-- bounds of an expression in `x` and `x²` -/
def sqB (E : Ex) (b : B) : Option B := (b.mul b).bind fun y => bnd (envB y b) E

theorem sqB_sound (E : Ex) {x : F64} {X : ℝ} {b r : B} (h : FlErr.In x X b) (hr : sqB E b = some r) : FlErr.In (evF (envF x) E) (evR (envR X) E) r := by
  unfold sqB at hr
  rw [Option.bind_eq_some_iff] at hr
  obtain ⟨y, hy, hr⟩ := hr
  refine bnd_sound (fun i => ?_) E r hr
  unfold envF envR envB
  split
  · exact mul_sound h h hy
  · exact h

theorem pieces_abs (E : Ex) {e w n : ℕ} {a : ℤ} {x : F64} (hf : x.isFin = true) (hn : 0 < n) (h : pieces (sqB E) (absC e) w n a = true)
    (h1 : a / FlErr.U ≤ x.val) (h2 : x.val ≤ ((a + w * n : ℤ) : ℝ) / FlErr.U) :
    (evF (envF x) E).isFin = true ∧ |(evF (envF x) E).val - evR (envR x.val) E| ≤ e / FlErr.U := by
  obtain ⟨r, hr, hc⟩ := pieces_sound (f := fun x => evF (envF x) E) (g := fun x => evR (envR x) E) (fun h1 h2 => sqB_sound E h1 h2) hf n a hn h h1 h2
  exact absC_sound hr hc

theorem pieces_rel (E : Ex) {K w n : ℕ} (hK : 0 < K) {a : ℤ} {x : F64} (hf : x.isFin = true) (hn : 0 < n) (h : pieces (sqB E) (relC K) w n a = true)
    (h1 : a / FlErr.U ≤ x.val) (h2 : x.val ≤ ((a + w * n : ℤ) : ℝ) / FlErr.U) :
    Rel (evF (envF x) E) (evR (envR x.val) E) (1 / K) ∧ (evF (envF x) E).val ≤ 2 ^ 40 := by
  obtain ⟨r, hr, hc⟩ := pieces_sound (f := fun x => evF (envF x) E) (g := fun x => evR (envR x) E) (fun h1 h2 => sqB_sound E h1 h2) hf n a hn h h1 h2
  exact relC_sound hK hr hc

set_option maxRecDepth 100000
theorem i0n_pc : pieces (sqB i0lE) (relC (10 ^ 14)) (2 ^ 158) 120 (-15 * 2 ^ 160) = true := by decide +kernel
theorem i1n_pc : pieces (sqB i1nE) (relC (10 ^ 14)) (2 ^ 158) 120 (-15 * 2 ^ 160) = true := by decide +kernel
theorem i1d_pc : pieces (sqB i1dE) (relC (10 ^ 14)) (2 ^ 158) 120 (-15 * 2 ^ 160) = true := by decide +kernel
theorem j0_pc : pieces (sqB j0lE) (absC (2 ^ 160 / 10 ^ 14)) (2 ^ 158) 64 (-8 * 2 ^ 160) = true := by decide +kernel
theorem j1_pc : pieces (sqB j1lE) (absC (2 ^ 160 / 10 ^ 14)) (2 ^ 158) 64 (-8 * 2 ^ 160) = true := by decide +kernel

end BesX
end Verif
