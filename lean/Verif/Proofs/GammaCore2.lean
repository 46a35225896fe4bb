import Verif.Proofs.GammaCore
import Verif.Props.Series

/-! # The polynomials of `gamma` approximate `Γ` on `[2.5, 3.5]` to `3·10⁻¹³` -/

namespace Verif
open ZPoly Filter Topology

/-- `10²²·4¹¹·p((v+11)/4)` for `z < 3` -/
def pLo : List ℤ := [67459483570716614328320000000, 13810660060093310042112000000, 2336143305674526818304000000, 252168844180314698547200000, 25551807586899453542400000, 1914272171000388403200000, 149266469820206387200000, 8264799289141373440000, 585121832448888256000, 21242172440918308800, 1936835379346328160, 7377657774398435]
/-- `10²²·4¹¹·p((v+13)/4)` for `3 < z` -/
def pHi : List ℤ := [106923586925353930588160000000, 27185079020473347473408000000, 4658088652858925514752000000, 562858441363060424704000000, 56732639782595575808000000, 4721069375456032768000000, 351746029541553971200000, 22739464413067120640000, 1375903726153233280000, 72922679485621305600, 3837607363751740800, 167383989199233170]

theorem check_lo : cCheck pLo 11 = true := by decide +kernel
theorem check_hi : cCheck pHi 13 = true := by decide +kernel

def sumAbs : List ℤ → ℤ
  | [] => 0
  | c :: cs => |c| + sumAbs cs

theorem ev_abs : ∀ (p : List ℤ) {v : ℝ}, |v| ≤ 1 → |ev p v| ≤ sumAbs p
  | [], v, h => by simp [ev, sumAbs]
  | c :: cs, v, h => by
    have ih := ev_abs cs h
    simp only [ev, sumAbs]
    push_cast
    refine (abs_add_le _ _).trans (add_le_add le_rfl ?_)
    rw [abs_mul]
    calc |v| * |ev cs v| ≤ 1 * |ev cs v| := mul_le_mul_of_nonneg_right h (abs_nonneg _)
      _ ≤ _ := by rw [one_mul]; exact ih

theorem ev_pos_of {c : ℤ} {cs : List ℤ} (hc : sumAbs cs < c) {v : ℝ} (h : |v| ≤ 1) : 0 < ev (c :: cs) v := by
  have h1 := ev_abs cs h
  have h2 : |v * ev cs v| ≤ sumAbs cs := by
    rw [abs_mul]
    calc |v| * |ev cs v| ≤ 1 * |ev cs v| := mul_le_mul_of_nonneg_right h (abs_nonneg _)
      _ ≤ _ := by rw [one_mul]; exact h1
  have h3 : (sumAbs cs : ℝ) < c := by exact_mod_cast hc
  have := (abs_le.1 h2).1
  simp only [ev]
  linarith

theorem pLo_pos {v : ℝ} (h : |v| ≤ 1) : 0 < ev pLo v := ev_pos_of (by decide +kernel) h
theorem pHi_pos {v : ℝ} (h : |v| ≤ 1) : 0 < ev pHi v := ev_pos_of (by decide +kernel) h

/-- the common scale -/
noncomputable def cK : ℝ := Real.log (10^22 * 4^11) + 8 * Real.log 4

theorem logs_shift {z v : ℝ} (o : ℤ) (hv : v = 4 * z - o) (hz : 0 < z) :
    logs (ks8 o) v = Real.log (Real.Gamma (z + 8)) - Real.log (Real.Gamma z) + 8 * Real.log 4 := by
  have g : ∀ y : ℝ, 0 < y → Real.log (Real.Gamma (y + 1)) = Real.log y + Real.log (Real.Gamma y) := fun y hy => by
    rw [Real.Gamma_add_one hy.ne', Real.log_mul hy.ne' (Real.Gamma_pos_of_pos hy).ne']
  have l : ∀ j : ℝ, 0 ≤ j → Real.log (4 * (z + j)) = Real.log 4 + Real.log (z + j) := fun j hj => Real.log_mul (by norm_num) (by positivity)
  have g0 := g z hz
  have g1 := g (z + 1) (by linarith)
  have g2 := g (z + 2) (by linarith)
  have g3 := g (z + 3) (by linarith)
  have g4 := g (z + 4) (by linarith)
  have g5 := g (z + 5) (by linarith)
  have g6 := g (z + 6) (by linarith)
  have g7 := g (z + 7) (by linarith)
  have l0 := l 0 (by norm_num)
  have l1 := l 1 (by norm_num)
  have l2 := l 2 (by norm_num)
  have l3 := l 3 (by norm_num)
  have l4 := l 4 (by norm_num)
  have l5 := l 5 (by norm_num)
  have l6 := l 6 (by norm_num)
  have l7 := l 7 (by norm_num)
  rw [add_zero] at l0
  rw [show z + 1 + 1 = z + 2 by ring] at g1
  rw [show z + 2 + 1 = z + 3 by ring] at g2
  rw [show z + 3 + 1 = z + 4 by ring] at g3
  rw [show z + 4 + 1 = z + 5 by ring] at g4
  rw [show z + 5 + 1 = z + 6 by ring] at g5
  rw [show z + 6 + 1 = z + 7 by ring] at g6
  rw [show z + 7 + 1 = z + 8 by ring] at g7
  simp only [ks8, logs]
  push_cast
  rw [hv, show 4 * z - (o:ℝ) + o = 4 * z by ring, show 4 * z - (o:ℝ) + (o + 4) = 4 * (z + 1) by ring, show 4 * z - (o:ℝ) + (o + 8) = 4 * (z + 2) by ring,
    show 4 * z - (o:ℝ) + (o + 12) = 4 * (z + 3) by ring, show 4 * z - (o:ℝ) + (o + 16) = 4 * (z + 4) by ring,
    show 4 * z - (o:ℝ) + (o + 20) = 4 * (z + 5) by ring, show 4 * z - (o:ℝ) + (o + 24) = 4 * (z + 6) by ring,
    show 4 * z - (o:ℝ) + (o + 28) = 4 * (z + 7) by ring]
  linarith

/-- the difference `cH` is `log p - log Γ` up to the error of Stirling's series -/
theorem cH_gamma {P : List ℤ} {o : ℤ} {z v : ℝ} (hv : v = 4 * z - o) (hz : 5/2 ≤ z) (hP : 0 < ev P v) :
    |cH P o v - cK - (Real.log (ev P v / (10^22 * 4^11)) - Real.log (Real.Gamma z))| ≤ 1.2e-14 := by
  obtain ⟨s1, s2⟩ := stirling6 (x := z + 8) (by linarith)
  have e := logs_shift o hv (by linarith)
  have hb : (691/360360 / (z + 8)^11 : ℝ) ≤ 1.2e-14 := by
    have h1 : (21/2:ℝ)^11 ≤ (z + 8)^11 := pow_le_pow_left₀ (by norm_num) (by linarith) 11
    calc (691/360360 / (z + 8)^11 : ℝ) ≤ 691/360360 / (21/2)^11 := div_le_div_of_nonneg_left (by norm_num) (by norm_num) h1
      _ ≤ _ := by norm_num
  unfold cH cK
  rw [e, show (v + ((o:ℝ) + 32)) / 4 = z + 8 by rw [hv]; ring, Real.log_div hP.ne' (by positivity)]
  rw [abs_le]
  constructor <;> linarith

theorem log_close {a b e : ℝ} (ha : 0 < a) (hb : 0 < b) (h : |a / b - 1| ≤ e) (he : e ≤ 1/2) : |Real.log a - Real.log b| ≤ 2 * e := by
  rw [← Real.log_div ha.ne' hb.ne']
  have k := abs_le.1 h
  have hq : 0 < a / b := by positivity
  rw [abs_le]
  constructor
  · have h1 := Real.one_sub_inv_le_log_of_pos hq
    have h3 : (a / b)⁻¹ ≤ 1 + 2 * e := by
      rw [inv_le_comm₀ hq (by linarith)]
      refine le_trans ?_ (by linarith : 1 - e ≤ a / b)
      rw [inv_le_iff_one_le_mul₀ (by linarith)]
      nlinarith
    linarith
  · have := Real.log_le_sub_one_of_pos hq
    linarith

theorem Gamma_three : Real.Gamma 3 = 2 := by
  rw [show (3:ℝ) = (2:ℕ) + 1 by norm_num, Real.Gamma_nat_eq_factorial]
  norm_num [Nat.factorial]

theorem Gamma_five_halves : Real.Gamma (5/2) = 3/4 * √Real.pi := by
  rw [show (5/2:ℝ) = 3/2 + 1 by norm_num, Real.Gamma_add_one (by norm_num), show (3/2:ℝ) = 1/2 + 1 by norm_num, Real.Gamma_add_one (by norm_num),
    Real.Gamma_one_half_eq]
  ring

theorem Gamma_seven_halves : Real.Gamma (7/2) = 15/8 * √Real.pi := by
  rw [show (7/2:ℝ) = 5/2 + 1 by norm_num, Real.Gamma_add_one (by norm_num), Gamma_five_halves]
  ring

theorem sqrt_pi_bounds : 1.772453850905516027 < √Real.pi ∧ √Real.pi < 1.772453850905516028 := by
  have p1 := Real.pi_gt_d20
  have p2 := Real.pi_lt_d20
  constructor
  · rw [Real.lt_sqrt (by norm_num)]
    norm_num at p1 ⊢; linarith
  · rw [Real.sqrt_lt' (by norm_num)]
    norm_num at p2 ⊢; linarith

theorem core_gen {P : List ℤ} {o : ℤ} (hc : cCheck P o = true) (ho : 11 ≤ o) (hP : ∀ v : ℝ, |v| ≤ 1 → 0 < ev P v)
    (ha : |Real.log (ev P (-1) / (10^22 * 4^11)) - Real.log (Real.Gamma ((o - 1) / 4))| ≤ 1e-15)
    (hb : |Real.log (ev P 1 / (10^22 * 4^11)) - Real.log (Real.Gamma ((o + 1) / 4))| ≤ 1e-15)
    {z v : ℝ} (hv : v = 4 * z - o) (hv1 : |v| ≤ 1) : |Real.log (ev P v / (10^22 * 4^11)) - Real.log (Real.Gamma z)| ≤ 2.8e-13 := by
  have ho' : (11:ℝ) ≤ o := by exact_mod_cast ho
  have hz : ∀ v : ℝ, -1 ≤ v → ∀ k ∈ ks8 o, 0 < v + k := by
    intro v hv k hk
    have hk2 : (11:ℝ) ≤ k := by
      have : 11 ≤ k := by
        simp only [ks8, List.mem_cons, List.not_mem_nil, or_false] at hk
        omega
      exact_mod_cast this
    linarith
  have d1 : ∀ v, -1 ≤ v → v ≤ 1 → HasDerivAt (fun v => cH P o v - cK) (cH1 P o v) v := fun v a b =>
    (cH_deriv (hP v (abs_le.2 ⟨a, b⟩)) (hz v a) (by linarith)).sub_const _
  have d2 : ∀ v, -1 ≤ v → v ≤ 1 → HasDerivAt (cH1 P o) (cH2 P o v) v := fun v a b =>
    cH1_deriv (hP v (abs_le.2 ⟨a, b⟩)) (hz v a) (by linarith)
  have bd : ∀ v, -1 < v → v < 1 → |cH2 P o v| ≤ 5/10^13 := fun v a b =>
    cH2_bound hc a b (hP v (abs_le.2 ⟨a.le, b.le⟩)) (hz v a.le) (by linarith)
  have g1 := cH_gamma (P := P) (o := o) (z := (o - 1) / 4) (v := -1) (by ring) (by linarith) (hP _ (by norm_num))
  have g2 := cH_gamma (P := P) (o := o) (z := (o + 1) / 4) (v := 1) (by ring) (by linarith) (hP _ (by norm_num))
  have k := abs_le.1 hv1
  have g := cH_gamma (P := P) (o := o) hv (by linarith) (hP _ hv1)
  rw [abs_le] at ha hb g1 g2 g
  have hv2 : 0 ≤ v^2 := sq_nonneg v
  have s1 := sandwich2 (b := 5/10^13) (e := 1.3e-14) d1 d2 (fun v a b => (abs_le.1 (bd v a b)).2) (by norm_num at *; linarith) (by norm_num at *; linarith) k.1 k.2
  have s2 := sandwich2 (f := fun v => -(cH P o v - cK)) (f1 := fun v => -cH1 P o v) (f2 := fun v => -cH2 P o v) (b := 5/10^13) (e := 1.3e-14)
    (fun v a b => (d1 v a b).neg) (fun v a b => (d2 v a b).neg) (fun v a b => by have := (abs_le.1 (bd v a b)).1; linarith)
    (by norm_num at *; linarith) (by norm_num at *; linarith) k.1 k.2
  rw [abs_le]
  norm_num at *
  constructor <;> linarith

theorem lo_acc {z : ℝ} (h1 : 5/2 ≤ z) (h2 : z ≤ 3) : |Real.log (ev pLo (4 * z - 11) / (10^22 * 4^11)) - Real.log (Real.Gamma z)| ≤ 2.8e-13 := by
  obtain ⟨q1, q2⟩ := sqrt_pi_bounds
  refine core_gen (P := pLo) (o := 11) check_lo (by norm_num) (fun v => pLo_pos) ?_ ?_ (by push_cast; ring) (by rw [abs_le]; constructor <;> linarith)
  · refine (log_close (e := 5e-16) (div_pos (pLo_pos (by norm_num)) (by norm_num)) (Real.Gamma_pos_of_pos (by norm_num)) ?_ (by norm_num)).trans (by norm_num)
    rw [show (((11:ℤ):ℝ) - 1) / 4 = 5/2 by norm_num, Gamma_five_halves]
    have e : ev pLo (-1) / (10^22 * 4^11) = 2230263083000522570626385477 / 1677721600000000000000000000 := by simp only [pLo, ev]; push_cast; norm_num
    rw [e]
    have hs : 0 < 3/4 * √Real.pi := by positivity
    rw [div_sub_one hs.ne', abs_div, abs_of_pos hs, div_le_iff₀ hs, abs_le]
    norm_num at *
    constructor <;> linarith
  · refine (log_close (e := 5e-16) (div_pos (pLo_pos (by norm_num)) (by norm_num)) (Real.Gamma_pos_of_pos (by norm_num)) ?_ (by norm_num)).trans (by norm_num)
    rw [show (((11:ℤ):ℝ) + 1) / 4 = 3 by norm_num, Gamma_three]
    have e : ev pLo 1 / (10^22 * 4^11) = 16777215999999998600783346279 / 8388608000000000000000000000 := by simp only [pLo, ev]; push_cast; norm_num
    rw [e, abs_le]
    norm_num

theorem hi_acc {z : ℝ} (h1 : 3 ≤ z) (h2 : z ≤ 7/2) : |Real.log (ev pHi (4 * z - 13) / (10^22 * 4^11)) - Real.log (Real.Gamma z)| ≤ 2.8e-13 := by
  obtain ⟨q1, q2⟩ := sqrt_pi_bounds
  refine core_gen (P := pHi) (o := 13) check_hi (by norm_num) (fun v => pHi_pos) ?_ ?_ (by push_cast; ring) (by rw [abs_le]; constructor <;> linarith)
  · refine (log_close (e := 5e-16) (div_pos (pHi_pos (by norm_num)) (by norm_num)) (Real.Gamma_pos_of_pos (by norm_num)) ?_ (by norm_num)).trans (by norm_num)
    rw [show (((13:ℤ):ℝ) - 1) / 4 = 3 by norm_num, Gamma_three]
    have e : ev pHi (-1) / (10^22 * 4^11) = 8388607999999998627685504203 / 4194304000000000000000000000 := by simp only [pHi, ev]; push_cast; norm_num
    rw [e, abs_le]
    norm_num
  · refine (log_close (e := 5e-16) (div_pos (pHi_pos (by norm_num)) (by norm_num)) (Real.Gamma_pos_of_pos (by norm_num)) ?_ (by norm_num)).trans (by norm_num)
    rw [show (((13:ℤ):ℝ) + 1) / 4 = 7/2 by norm_num, Gamma_seven_halves]
    have e : ev pHi 1 / (10^22 * 4^11) = 13939144268753266722249739957 / 4194304000000000000000000000 := by simp only [pHi, ev]; push_cast; norm_num
    rw [e]
    have hs : 0 < 15/8 * √Real.pi := by positivity
    rw [div_sub_one hs.ne', abs_div, abs_of_pos hs, div_le_iff₀ hs, abs_le]
    norm_num at *
    constructor <;> linarith

theorem rel_of_log {a b : ℝ} (ha : 0 < a) (hb : 0 < b) (h : |Real.log a - Real.log b| ≤ 2.8e-13) : |a - b| ≤ 2.9e-13 * b := by
  have e : a = b * Real.exp (Real.log a - Real.log b) := by
    rw [Real.exp_sub, Real.exp_log ha, Real.exp_log hb]; field_simp
  generalize Real.log a - Real.log b = d at *
  rw [e, show b * Real.exp d - b = b * (Real.exp d - 1) by ring, abs_mul, abs_of_pos hb, mul_comm]
  refine mul_le_mul_of_nonneg_right ?_ hb.le
  have hb2 := Real.abs_exp_sub_one_sub_id_le (x := d) (h.trans (by norm_num))
  have h3 := abs_add_le (Real.exp d - 1 - d) d
  rw [sub_add_cancel] at h3
  have h4 : d ^ 2 ≤ 1e-20 := by
    rw [← sq_abs]
    calc |d|^2 ≤ (2.8e-13)^2 := pow_le_pow_left₀ (abs_nonneg _) h 2
      _ ≤ _ := by norm_num
  norm_num at *
  linarith

theorem core_lo [Cfg] (z : ℝ) : polynomial (z - 2.75) gammaPolyLo = ev pLo (4 * z - 11) / (10^22 * 4^11) := by
  rw [polynomial_exact]
  simp only [gammaPolyLo, pLo, ev, List.reverse, List.reverseAux, polySum]
  push_cast
  norm_num [Finset.sum_range_succ]
  ring

theorem core_hi [Cfg] (z : ℝ) : polynomial (z - 3.25) gammaPolyHi = ev pHi (4 * z - 13) / (10^22 * 4^11) := by
  rw [polynomial_exact]
  simp only [gammaPolyHi, pHi, ev, List.reverse, List.reverseAux, polySum]
  push_cast
  norm_num [Finset.sum_range_succ]
  ring

/-- the core of `gamma`, in exact arithmetic -/
theorem gammaCore_exact [Cfg] {z : ℝ} (h1 : 5/2 ≤ z) (h2 : z ≤ 7/2) : |gammaCore z - Real.Gamma z| ≤ 2.9e-13 * Real.Gamma z := by
  have hG := Real.Gamma_pos_of_pos (s := z) (by linarith)
  unfold gammaCore
  show |(if decide ((3.0:ℝ) < z) = true then _ else if decide (z < (3.0:ℝ)) = true then _ else (2.0:ℝ)) - _| ≤ _
  rw [core_hi, core_lo, show (3.0:ℝ) = 3 by norm_num]
  rcases lt_trichotomy z 3 with h | h | h
  · rw [decide_eq_false (by linarith), decide_eq_true h, if_neg (by simp), if_pos rfl]
    exact rel_of_log (div_pos (pLo_pos (by rw [abs_le]; constructor <;> linarith)) (by norm_num)) hG (lo_acc h1 h.le)
  · rw [h, Gamma_three]
    norm_num
  · rw [decide_eq_true h, if_pos rfl]
    exact rel_of_log (div_pos (pHi_pos (by rw [abs_le]; constructor <;> linarith)) (by norm_num)) hG (hi_acc h.le h2)

end Verif
