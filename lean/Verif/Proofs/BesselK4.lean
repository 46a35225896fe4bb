import Verif.Proofs.BesselK
import Verif.Proofs.BesselK2
import Verif.Proofs.BesselK3

/-! `k0` and `k1` for `x ≥ 1` in exact arithmetic: the scaled functions `K_0/K_{1/2}` and `K_1/K_{1/2}`. -/

namespace Verif
namespace Bes
open ZPoly Real Set Filter Topology

/-- the rational function `A/B` at `1/x` -/
noncomputable def ri (A B : List ℤ) (x : ℝ) : ℝ := ev A (1 / x) / ev B (1 / x)

theorem ri_deriv (A B : List ℤ) {x : ℝ} (hx : 0 < x) (hB : ev B (1 / x) ≠ 0) :
    HasDerivAt (ri A B) (ev (dd A B) (1 / x) / ev B (1 / x) ^ 2 * (-(1 / x) ^ 2)) x := by
  have hy : HasDerivAt (fun x : ℝ => 1 / x) (-(1 / x) ^ 2) x := by
    refine (hasDerivAt_const_div hx.ne' 1).congr_deriv ?_
    field_simp
  have h3 := ((hasDerivAt_ev A (1 / x)).comp x hy).div ((hasDerivAt_ev B (1 / x)).comp x hy) hB
  refine h3.congr_deriv ?_
  simp only [Function.comp_apply]
  rw [dd, ev_sub, ev_mul, ev_mul]
  field_simp
  ring

theorem ri_tendsto (A B : List ℤ) (hB : ev B 0 ≠ 0) : Tendsto (ri A B) atTop (𝓝 (ev A 0 / ev B 0)) := by
  have h : Tendsto (fun x : ℝ => 1 / x) atTop (𝓝 0) := tendsto_const_nhds.div_atTop tendsto_id
  have c : ∀ A : List ℤ, Tendsto (fun x : ℝ => ev A (1 / x)) atTop (𝓝 (ev A 0)) := fun A =>
    (hasDerivAt_ev A 0).continuousAt.tendsto.comp h
  exact (c A).div (c B) hB

theorem ev_pos_of' {p : List ℤ} (h1 : 0 < p.headD 0) (h2 : nonneg p = true) {y : ℝ} (hy : 0 ≤ y) : 0 < ev p y := by
  cases p with
  | nil => simp at h1
  | cons a p =>
    simp only [nonneg, Bool.and_eq_true] at h2
    exact ev_pos a p y h1 h2.2 hy

theorem kA_pos {y : ℝ} (hy : 0 ≤ y) : 0 < ev kA y := ev_pos_of' (by decide +kernel) (by decide +kernel) hy
theorem kB_pos {y : ℝ} (hy : 0 ≤ y) : 0 < ev kB y := ev_pos_of' (by decide +kernel) (by decide +kernel) hy
theorem kC_pos {y : ℝ} (hy : 0 ≤ y) : 0 < ev kC y := ev_pos_of' (by decide +kernel) (by decide +kernel) hy
theorem kD_pos {y : ℝ} (hy : 0 ≤ y) : 0 < ev kD y := ev_pos_of' (by decide +kernel) (by decide +kernel) hy

theorem kA_le {y : ℝ} (hy : 0 ≤ y) : ev kA y ≤ ev kB y := by
  have := ev_nonneg (sub kB kA) y (by decide +kernel) hy
  rw [ev_sub] at this; linarith
theorem kC_le {y : ℝ} (hy : 0 ≤ y) : ev kC y ≤ 10 * ev kD y := by
  have := ev_nonneg (sub (smul 10 kD) kC) y (by decide +kernel) hy
  rw [ev_sub, ev_smul] at this; push_cast at this; linarith

/-- `K_0/K_{1/2}`, `K_1/K_{1/2}` -/
noncomputable def tf (x : ℝ) : ℝ := besselKR 0 x / besselKR (1 / 2) x
noncomputable def tg (x : ℝ) : ℝ := besselKR 1 x / besselKR (1 / 2) x

theorem K0_deriv {x : ℝ} (hx : 0 < x) : HasDerivAt (besselKR 0) (-besselKR 1 x) x := by
  refine (K_deriv hx 0).congr_deriv ?_
  rw [show (0 - 1 : ℝ) = -1 by norm_num, K_neg, zero_add]; ring

theorem K1_deriv {x : ℝ} (hx : 0 < x) : HasDerivAt (besselKR 1) (-besselKR 0 x - besselKR 1 x / x) x := by
  refine (K_deriv hx 1).congr_deriv ?_
  have h := K_rec hx 1
  rw [show (1 - 1 : ℝ) = 0 by norm_num] at *
  have : besselKR (1 + 1) x = besselKR 0 x + 2 * besselKR 1 x / x := by
    field_simp; linarith
  rw [this]; field_simp; ring

theorem Kh_deriv {x : ℝ} (hx : 0 < x) : HasDerivAt (besselKR (1 / 2)) (-(besselKR (1 / 2) x * (1 + 1 / (2 * x)))) x := by
  refine (K_deriv hx (1 / 2)).congr_deriv ?_
  have h := K_rec hx (1 / 2)
  rw [show (1 / 2 - 1 : ℝ) = -(1 / 2) by norm_num, K_neg] at *
  have : besselKR (1 / 2 + 1) x = besselKR (1 / 2) x + besselKR (1 / 2) x / x := by
    field_simp; linarith
  rw [this]; field_simp; ring

theorem tf_deriv {x : ℝ} (hx : 0 < x) : HasDerivAt tf (tf x + tf x / (2 * x) - tg x) x := by
  have h0 := (K_pos hx (1 / 2)).ne'
  refine ((K0_deriv hx).div (Kh_deriv hx) h0).congr_deriv ?_
  unfold tf tg
  field_simp; ring

theorem tg_deriv {x : ℝ} (hx : 0 < x) : HasDerivAt tg (tg x - tf x - tg x / (2 * x)) x := by
  have h0 := (K_pos hx (1 / 2)).ne'
  refine ((K1_deriv hx).div (Kh_deriv hx) h0).congr_deriv ?_
  unfold tf tg
  field_simp; ring

theorem tfg_bounds {x : ℝ} (hx : 0 < x) : tf x ≤ 1 ∧ 1 ≤ tg x ∧ tg x - tf x ≤ 1 / (2 * x) ∧ 0 < tf x := by
  have h0 := K_pos hx (1 / 2)
  obtain ⟨h1, h2, h3⟩ := K_sandwich hx
  unfold tf tg
  refine ⟨(div_le_one h0).2 h1, (one_le_div h0).2 h2, ?_, div_pos (K_pos hx 0) h0⟩
  rw [← sub_div, div_le_iff₀ h0]
  refine h3.trans (le_of_eq (by ring))

theorem tf_tendsto : Tendsto tf atTop (𝓝 1) := by
  have h : Tendsto (fun x : ℝ => 1 - 1 / (2 * x)) atTop (𝓝 (1 - 0)) :=
    tendsto_const_nhds.sub (tendsto_const_nhds.div_atTop (tendsto_id.const_mul_atTop (by norm_num)))
  rw [sub_zero] at h
  refine tendsto_of_tendsto_of_tendsto_of_le_of_le' h tendsto_const_nhds ?_ ?_
  · filter_upwards [eventually_gt_atTop 0] with x hx
    obtain ⟨h1, h2, h3, -⟩ := tfg_bounds hx; linarith
  · filter_upwards [eventually_gt_atTop 0] with x hx using (tfg_bounds hx).1

theorem tg_tendsto : Tendsto tg atTop (𝓝 1) := by
  have h : Tendsto (fun x : ℝ => 1 + 1 / (2 * x)) atTop (𝓝 (1 + 0)) :=
    tendsto_const_nhds.add (tendsto_const_nhds.div_atTop (tendsto_id.const_mul_atTop (by norm_num)))
  rw [add_zero] at h
  refine tendsto_of_tendsto_of_tendsto_of_le_of_le' tendsto_const_nhds h ?_ ?_
  · filter_upwards [eventually_gt_atTop 0] with x hx using (tfg_bounds hx).2.1
  · filter_upwards [eventually_gt_atTop 0] with x hx
    obtain ⟨h1, h2, h3, -⟩ := tfg_bounds hx; linarith

/-- the errors of sum and difference -/
noncomputable def kes (x : ℝ) : ℝ := (ri kA kB x + ri kC kD x) - (tf x + tg x)
noncomputable def ked (x : ℝ) : ℝ := (ri kC kD x - ri kA kB x) - (tg x - tf x)
/-- residuals -/
noncomputable def krs (x : ℝ) : ℝ := ev Nks (1 / x) / (2 * ev kW (1 / x)) * (1 / x)
noncomputable def krd (x : ℝ) : ℝ := ev Nkd (1 / x) / (2 * ev kW (1 / x))

theorem kes_deriv {x : ℝ} (hx : 0 < x) : HasDerivAt kes (-(ked x) / (2 * x) + krs x) x := by
  have hz : (0:ℝ) ≤ 1 / x := by positivity
  have hb := (kB_pos hz).ne'
  have hd := (kD_pos hz).ne'
  refine (((ri_deriv kA kB hx hb).add (ri_deriv kC kD hx hd)).sub ((tf_deriv hx).add (tg_deriv hx))).congr_deriv ?_
  unfold ked krs ri Nks kW kU kV kX kY
  simp only [ev_add, ev_sub, ev_smul, ev_sh, ev_mul]
  have hi : ∀ q : ℝ, q / (2 * x) = 1 / x * q / 2 := by intro q; field_simp
  rw [hi, hi, hi]
  generalize 1 / x = z at *
  generalize ev kA z = a at *
  generalize ev kB z = b at *
  generalize ev kC z = c at *
  generalize ev kD z = d at *
  generalize ev (dd kA kB) z = p
  generalize ev (dd kC kD) z = q
  push_cast
  field_simp
  ring

theorem ked_deriv {x : ℝ} (hx : 0 < x) : HasDerivAt ked (2 * ked x + (-(kes x) / (2 * x) + krd x)) x := by
  have hz : (0:ℝ) ≤ 1 / x := by positivity
  have hb := (kB_pos hz).ne'
  have hd := (kD_pos hz).ne'
  refine (((ri_deriv kC kD hx hd).sub (ri_deriv kA kB hx hb)).sub ((tg_deriv hx).sub (tf_deriv hx))).congr_deriv ?_
  unfold kes ked krd ri Nkd kW kU kV kX kY
  simp only [ev_add, ev_sub, ev_smul, ev_sh, ev_mul]
  have hi : ∀ q : ℝ, q / (2 * x) = 1 / x * q / 2 := by intro q; field_simp
  rw [hi, hi, hi]
  generalize 1 / x = z at *
  generalize ev kA z = a at *
  generalize ev kB z = b at *
  generalize ev kC z = c at *
  generalize ev kD z = d at *
  generalize ev (dd kA kB) z = p
  generalize ev (dd kC kD) z = q
  push_cast
  field_simp
  ring

theorem kW_pos {y : ℝ} (hy : 0 ≤ y) : 0 < ev kW y := by
  rw [kW, ev_mul, ev_mul, ev_mul]
  have := kB_pos hy
  have := kD_pos hy
  positivity

theorem krs_le {x c : ℝ} (hx : 0 < x) (h : |ev Nks (1 / x)| ≤ c * (1 / x) * ev kW (1 / x)) : |krs x| ≤ c / 2 / x ^ 2 := by
  have hw := kW_pos (by positivity : (0:ℝ) ≤ 1 / x)
  unfold krs
  rw [abs_mul, abs_div, abs_of_pos (by positivity : 0 < 2 * ev kW (1 / x)), abs_of_pos (by positivity : 0 < 1 / x)]
  have : |ev Nks (1 / x)| / (2 * ev kW (1 / x)) ≤ c * (1 / x) / 2 := by
    rw [div_le_iff₀ (by positivity)]
    refine h.trans (le_of_eq (by ring))
  calc _ ≤ c * (1 / x) / 2 * (1 / x) := by gcongr
    _ = _ := by field_simp

theorem krd_le {x c : ℝ} (hx : 0 < x) (h : |ev Nkd (1 / x)| ≤ c * (1 / x) * ev kW (1 / x)) : |krd x| ≤ c / 2 / x := by
  have hw := kW_pos (by positivity : (0:ℝ) ≤ 1 / x)
  unfold krd
  rw [abs_div, abs_of_pos (by positivity : 0 < 2 * ev kW (1 / x)), div_le_iff₀ (by positivity)]
  refine h.trans (le_of_eq (by field_simp))

theorem krs_far {x : ℝ} (hx : 64 ≤ x) : |krs x| ≤ 6.5e-13 / x ^ 2 := by
  have hx0 : 0 < x := by linarith
  have hz : (0:ℝ) ≤ 1 / x := by positivity
  have hz1 : 1 / x ≤ 1 / 64 := one_div_le_one_div_of_le (by norm_num) hx
  have h := resOn_sound (by norm_num) (by norm_num) (by norm_num) (by norm_num) cert_s1 hz (by push_cast; linarith) (by push_cast; linarith) (kW_pos hz).le
  refine (krs_le hx0 h).trans (le_of_eq ?_)
  norm_num
theorem krd_far {x : ℝ} (hx : 64 ≤ x) : |krd x| ≤ 4.6e-12 / x := by
  have hx0 : 0 < x := by linarith
  have hz : (0:ℝ) ≤ 1 / x := by positivity
  have hz1 : 1 / x ≤ 1 / 64 := one_div_le_one_div_of_le (by norm_num) hx
  have h := resOn_sound (by norm_num) (by norm_num) (by norm_num) (by norm_num) cert_d1 hz (by push_cast; linarith) (by push_cast; linarith) (kW_pos hz).le
  refine (krd_le hx0 h).trans (le_of_eq ?_)
  norm_num

theorem krs_near {x : ℝ} (hx : x ∈ Icc (1:ℝ) 64) : |krs x| ≤ 2.5e-13 / x ^ 2 := by
  have hx0 : 0 < x := by linarith [hx.1]
  have hz : (0:ℝ) ≤ 1 / x := by positivity
  have hz1 : 1 / 64 ≤ 1 / x := one_div_le_one_div_of_le hx0 hx.2
  have hz2 : 1 / x ≤ 1 := by rw [div_le_one hx0]; exact hx.1
  have h : |ev Nks (1 / x)| ≤ (50:ℤ) / (10 ^ 14 : ℤ) * (1 / x) * ev kW (1 / x) := by
    rcases le_total (1 / x) (1 / 8) with h | h
    · exact resOn_sound (by norm_num) (by norm_num) (by norm_num) (by norm_num) cert_s2 hz (by push_cast; linarith) (by push_cast; linarith) (kW_pos hz).le
    · exact resOn_sound (by norm_num) (by norm_num) (by norm_num) (by norm_num) cert_s3 hz (by push_cast; linarith) (by push_cast; linarith) (kW_pos hz).le
  refine (krs_le hx0 h).trans (le_of_eq ?_)
  norm_num
theorem krd_near {x : ℝ} (hx : x ∈ Icc (1:ℝ) 64) : |krd x| ≤ 6e-13 / x := by
  have hx0 : 0 < x := by linarith [hx.1]
  have hz : (0:ℝ) ≤ 1 / x := by positivity
  have hz1 : 1 / 64 ≤ 1 / x := one_div_le_one_div_of_le hx0 hx.2
  have hz2 : 1 / x ≤ 1 := by rw [div_le_one hx0]; exact hx.1
  have h : |ev Nkd (1 / x)| ≤ (120:ℤ) / (10 ^ 14 : ℤ) * (1 / x) * ev kW (1 / x) := by
    rcases le_total (1 / x) (1 / 8) with h | h
    · exact resOn_sound (by norm_num) (by norm_num) (by norm_num) (by norm_num) cert_d2 hz (by push_cast; linarith) (by push_cast; linarith) (kW_pos hz).le
    · exact resOn_sound (by norm_num) (by norm_num) (by norm_num) (by norm_num) cert_d3 hz (by push_cast; linarith) (by push_cast; linarith) (kW_pos hz).le
  refine (krd_le hx0 h).trans (le_of_eq ?_)
  norm_num

theorem ev_zero' (p : List ℤ) : ev p 0 = ((p.headD 0 : ℤ) : ℝ) := by cases p <;> simp [ev]

theorem riAB_tendsto : Tendsto (ri kA kB) atTop (𝓝 1) := by
  have h := ri_tendsto kA kB (kB_pos le_rfl).ne'
  rwa [ev_zero', ev_zero', show kA.headD 0 = kB.headD 0 by decide +kernel, div_self] at h
  rw [← ev_zero']; exact (kB_pos le_rfl).ne'
theorem riCD_tendsto : Tendsto (ri kC kD) atTop (𝓝 1) := by
  have h := ri_tendsto kC kD (kD_pos le_rfl).ne'
  rwa [ev_zero', ev_zero', show kC.headD 0 = kD.headD 0 by decide +kernel, div_self] at h
  rw [← ev_zero']; exact (kD_pos le_rfl).ne'

/-- the scaled approximations are within `4.9e-13` for `x ≥ 1` -/
theorem right_scaled {x : ℝ} (hx : 1 ≤ x) : |ri kA kB x - tf x| ≤ 4.9e-13 ∧ |ri kC kD x - tg x| ≤ 4.9e-13 := by
  have l1 : Tendsto kes atTop (𝓝 0) := by
    have := (riAB_tendsto.add riCD_tendsto).sub (tf_tendsto.add tg_tendsto)
    rw [sub_self] at this; exact this
  have l2 : Tendsto ked atTop (𝓝 0) := by
    have := (riCD_tendsto.sub riAB_tendsto).sub (tg_tendsto.sub tf_tendsto)
    rw [sub_self] at this; exact this
  have hB : ∀ x, (64:ℝ) ≤ x → |kes x| ≤ 20 := by
    intro x hx
    have hx0 : 0 < x := by linarith
    have hz : (0:ℝ) ≤ 1 / x := by positivity
    obtain ⟨h1, h2, h3, h4⟩ := tfg_bounds hx0
    have h5 : 1 / (2 * x) ≤ 1 := by rw [div_le_one (by positivity)]; linarith
    have hA := kA_pos hz
    have hB := kB_pos hz
    have hC := kC_pos hz
    have hD := kD_pos hz
    have r1 : ri kA kB x ≤ 1 := (div_le_one hB).2 (kA_le hz)
    have r2 : ri kC kD x ≤ 10 := (div_le_iff₀ hD).2 (kC_le hz)
    have r3 : 0 ≤ ri kA kB x := div_nonneg hA.le hB.le
    have r4 : 0 ≤ ri kC kD x := div_nonneg hC.le hD.le
    unfold kes
    rw [abs_le]
    constructor <;> linarith
  obtain ⟨M, hM0, hM, hMx⟩ := stage_inf (X := 64) (R := 4.6e-12) (S := 6.5e-13) (B := 20) (by norm_num) (by norm_num) (by norm_num)
    (fun x hx => kes_deriv (by linarith)) (fun x hx => ked_deriv (by linarith)) (fun x hx => krs_far hx) (fun x hx => krd_far hx) hB l1 l2
  have hM1 : M ≤ 2.82e-14 := by norm_num at *; linarith
  have hT : ∀ x, (64:ℝ) ≤ x → |ked x| ≤ 3.61e-14 := by
    intro x hx
    refine (hMx x hx).2.trans ?_
    rw [div_le_iff₀ (by linarith)]
    norm_num at *
    linarith
  obtain ⟨N, hN0, hN, hNx⟩ := stage_fin (X := 64) (R := 6e-13) (S := 2.5e-13) (E := 2.82e-14) (T := 3.61e-14) (by norm_num) (by norm_num) (by norm_num) (by norm_num)
    (fun x hx => kes_deriv (by linarith [hx.1])) (fun x hx => ked_deriv (by linarith [hx.1])) (fun x hx => krs_near hx) (fun x hx => krd_near hx)
    ((hMx 64 le_rfl).1.trans hM1) (hT 64 le_rfl)
  have hN1 : N ≤ 5e-13 := by norm_num at *; linarith
  have key : |kes x| ≤ 5e-13 ∧ |ked x| ≤ 4.7e-13 := by
    rcases le_total 64 x with h | h
    · exact ⟨((hMx x h).1.trans hM1).trans (by norm_num), (hT x h).trans (by norm_num)⟩
    · obtain ⟨h1, h2⟩ := hNx x ⟨hx, h⟩
      refine ⟨h1.trans hN1, h2.trans ?_⟩
      have h3 : (N / 4 + 6e-13 / 2) / x ≤ N / 4 + 6e-13 / 2 := div_le_self (by positivity) hx
      have h4 : x ^ 2 ≤ 64 ^ 2 := pow_le_pow_left₀ (by linarith) h 2
      have h5 : (3.61e-14:ℝ) / 64 ^ 2 * x ^ 2 ≤ 3.61e-14 := by
        calc (3.61e-14:ℝ) / 64 ^ 2 * x ^ 2 ≤ 3.61e-14 / 64 ^ 2 * 64 ^ 2 := by gcongr
          _ = _ := by norm_num
      norm_num at *
      linarith
  have e1 : ri kA kB x - tf x = (kes x - ked x) / 2 := by unfold kes ked; ring
  have e2 : ri kC kD x - tg x = (kes x + ked x) / 2 := by unfold kes ked; ring
  rw [e1, e2]
  obtain ⟨h1, h2⟩ := key
  simp only [abs_le] at h1 h2 ⊢
  norm_num at h1 h2 ⊢
  refine ⟨⟨?_, ?_⟩, ?_, ?_⟩ <;> linarith [h1.1, h1.2, h2.1, h2.2]

end Bes
end Verif
