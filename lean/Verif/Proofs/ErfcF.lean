import Verif.Proofs.ErfcReal
import Verif.Proofs.Rel
import Verif.Proofs.Error
import Verif.Proofs.ErfcxTailF
import Verif.Props.Series

/-! # `erfccheb` in binary64: rounding errors -/

namespace Verif
open F64 FlErr

/-- the coefficients in the order in which the loop uses them -/
def cofEx : List Ex := [.lit 121 18, .neg (.lit 94 18), .neg (.lit 1523 18), .lit 7106 18, .lit 381 18, .neg (.lit 112708 18), .lit 313092 18, .lit 894487 18, .neg (.lit 6886027 18), .lit 2394038 18, .lit 96467911 18, .neg (.lit 227365122 18), .neg (.lit 991364156 18), .lit 5059343495 18, .lit 6529054439 18, .neg (.lit 85238095915 18), .lit 15626441722 18, .lit 1303655835580 18, .neg (.lit 1624290004647 18), .neg (.lit 20278578112534 18), .lit 42523324806907 18, .lit 366839497852761 18, .neg (.lit 946595344482036 18), .neg (.lit 956151478680863 17), .lit 19476473204185836 18, .lit 6419697923564902 16]
def cof0Ex : Ex := .neg (.lit 13026537197817094 16)

theorem cofEx_F : (cofRev : List F64) = cofEx.map (evF (fun _ => 0.0)) := by
  simp [cofRev, COF, cofEx, evF]
theorem cofEx_R : (cofRev : List ℝ) = cofEx.map (evR (fun _ => 0)) := by
  simp only [cofRev, COF, cofEx, evR, List.map]
  norm_num
theorem cof0_F : (COF : List F64).headD 0.0 = evF (fun _ => 0.0) cof0Ex := by
  simp [COF, cof0Ex, evF]
theorem cof0_R : (COF : List ℝ).headD 0.0 = evR (fun _ => 0) cof0Ex := by
  simp only [COF, cof0Ex, evR, List.headD]
  norm_num

theorem zero_in : FlErr.In (0.0 : F64) 0 ⟨0, 0, 0⟩ := by
  refine ⟨by decide +kernel, ?_, ?_, ?_⟩ <;> simp [Verif.zero_val]

/-- the bounds of the Clenshaw loop -/
def clenB (bty : B) : List Ex → B × B → Option (B × B)
  | [], s => some s
  | c :: cs, s => (bnd (fun _ => ⟨0, 0, 0⟩) c).bind fun bc => (bty.mul s.1).bind fun p => (p.sub s.2).bind fun q => (q.add bc).bind fun r =>
      clenB bty cs (r, s.1)

theorem clen_sound {ty : F64} {TY : ℝ} {bty : B} (h : FlErr.In ty TY bty) : ∀ (cs : List Ex) {s : F64 × F64} {S : ℝ × ℝ} {b b' : B × B},
    FlErr.In s.1 S.1 b.1 → FlErr.In s.2 S.2 b.2 → clenB bty cs b = some b' →
    FlErr.In ((cs.map (evF (fun _ => 0.0))).foldl (clenshawStep ty) s).1 ((cs.map (evR (fun _ => 0))).foldl (clenshawStep TY) S).1 b'.1 ∧
    FlErr.In ((cs.map (evF (fun _ => 0.0))).foldl (clenshawStep ty) s).2 ((cs.map (evR (fun _ => 0))).foldl (clenshawStep TY) S).2 b'.2 := by
  intro cs
  induction cs with
  | nil =>
    intro s S b b' h1 h2 hb
    simp only [clenB, Option.some.injEq] at hb
    subst hb
    exact ⟨h1, h2⟩
  | cons c cs ih =>
    intro s S b b' h1 h2 hb
    simp only [clenB, Option.bind_eq_some_iff] at hb
    obtain ⟨bc, hc, p, hp, q, hq, r, hr, hb⟩ := hb
    have ic := bnd_sound (ρ := fun _ => (0.0 : F64)) (σ := fun _ => (0:ℝ)) (fun _ => zero_in) _ _ hc
    exact ih (s := clenshawStep ty s (evF (fun _ => 0.0) c)) (S := clenshawStep TY S (evR (fun _ => 0) c)) (b := (r, b.1))
      (add_sound (sub_sound (mul_sound h h1 hp) h2 hq) ic hr) h1 hb


/-- bounds of the parts `0.5*(c0 + ty*d)` and `dd` of the exponent, `t` given -/
def expoB (bt : B) : Option (B × B) :=
  (litB 40 1).bind fun b4 => (litB 20 1).bind fun b2 => (litB 5 1).bind fun b5 => (bnd (fun _ => ⟨0, 0, 0⟩) cof0Ex).bind fun b0 =>
  (b4.mul bt).bind fun p => (p.sub b2).bind fun ty => (clenB ty cofEx (⟨0, 0, 0⟩, ⟨0, 0, 0⟩)).bind fun s =>
  (ty.mul s.1).bind fun q => (b0.add q).bind fun r => (b5.mul r).bind fun w => some (w, s.2)

theorem expo_sound {t : F64} {T : ℝ} {bt : B} {b : B × B} (ht : FlErr.In t T bt) (h : expoB bt = some b) :
    FlErr.In (0.5 * ((COF : List F64).headD 0.0 + (4.0 * t - 2.0) * (clenshaw (4.0 * t - 2.0) cofRev).1))
      (0.5 * ((COF : List ℝ).headD 0.0 + (4.0 * T - 2.0) * (clenshaw (4.0 * T - 2.0) cofRev).1)) b.1 ∧
    FlErr.In (clenshaw (4.0 * t - 2.0) cofRev).2 (clenshaw (4.0 * T - 2.0) cofRev).2 b.2 := by
  simp only [expoB, Option.bind_eq_some_iff, Option.some.injEq] at h
  obtain ⟨b4, h4, b2, h2, b5, h5, b0, h0, p, hp, ty, hty, s, hs, q, hq, r, hr, w, hw, rfl⟩ := h
  have l4 := lit_sound h4
  have l2 := lit_sound h2
  have l5 := lit_sound h5
  have l0 := bnd_sound (ρ := fun _ => (0.0 : F64)) (σ := fun _ => (0:ℝ)) (fun _ => zero_in) _ _ h0
  have ity := sub_sound (mul_sound l4 ht hp) l2 hty
  have c := clen_sound ity cofEx (s := (0.0, 0.0)) (S := (0, 0)) zero_in zero_in hs
  have W := mul_sound l5 (add_sound l0 (mul_sound ity c.1 hq) hr) hw
  have e : ∀ T : ℝ, ((40:ℕ):ℝ) / 10^1 * T - ((20:ℕ):ℝ) / 10^1 = 4.0 * T - 2.0 := fun T => by norm_num
  have e5 : ((5:ℕ):ℝ) / 10^1 = 0.5 := by norm_num
  have e0 : (0.0:ℝ) = 0 := by norm_num
  rw [e, e5, ← cof0_R, ← cof0_F, ← cofEx_R, ← cofEx_F] at W
  rw [e, ← cofEx_R, ← cofEx_F] at c
  unfold clenshaw
  rw [e0] at W ⊢
  refine ⟨?_, ?_⟩
  · convert W using 3
  · convert c.2 using 3

/-- what `expoB` gives for `t` in `[0,1]` with error `2^-51` -/
theorem expo_acc {t : F64} {T : ℝ} (ht : FlErr.In t T ⟨0, 2^160 + 2^109, 2^109⟩) :
    FlErr.In (0.5 * ((COF : List F64).headD 0.0 + (4.0 * t - 2.0) * (clenshaw (4.0 * t - 2.0) cofRev).1))
      (0.5 * ((COF : List ℝ).headD 0.0 + (4.0 * T - 2.0) * (clenshaw (4.0 * T - 2.0) cofRev).1)) ⟨-2^161, 2^158, 2^112⟩ ∧
    FlErr.In (clenshaw (4.0 * t - 2.0) cofRev).2 (clenshaw (4.0 * T - 2.0) cofRev).2 ⟨-2^158, 2^158, 2^108⟩ := by
  have chk : (match expoB ⟨0, 2^160 + 2^109, 2^109⟩ with
    | some b => decide (-2^161 ≤ b.1.l) && decide (b.1.u ≤ 2^158) && decide (b.1.e ≤ 2^112) && (decide (-2^158 ≤ b.2.l) && decide (b.2.u ≤ 2^158) && decide (b.2.e ≤ 2^108))
    | none => false) = true := by decide +kernel
  split at chk
  · rename_i b hb
    simp only [Bool.and_eq_true, decide_eq_true_eq] at chk
    obtain ⟨⟨⟨a1, a2⟩, a3⟩, ⟨a4, a5⟩, a6⟩ := chk
    have h := expo_sound ht hb
    have mono : ∀ {x : F64} {X : ℝ} {b c : B}, FlErr.In x X b → c.l ≤ b.l → b.u ≤ c.u → b.e ≤ c.e → FlErr.In x X c := by
      intro x X b c k h1 h2 h3
      have hU := FlErr.U_pos
      have c1 : (c.l:ℝ) ≤ b.l := by exact_mod_cast h1
      have c2 : (b.u:ℝ) ≤ c.u := by exact_mod_cast h2
      have c3 : (b.e:ℝ) ≤ c.e := by exact_mod_cast h3
      exact ⟨k.fin, le_trans (by gcongr) k.lo, k.hi.trans (by gcongr), k.err.trans (by gcongr)⟩
    exact ⟨mono h.1 a1 a2 a3, mono h.2 a4 a5 a6⟩
  · cases chk

/-- the two parts add up to the polynomial of `erfc_real` -/
theorem expo_real (T : ℝ) : 0.5 * ((COF : List ℝ).headD 0.0 + (4.0 * T - 2.0) * (clenshaw (4.0 * T - 2.0) cofRev).1) - (clenshaw (4.0 * T - 2.0) cofRev).2 = eP T := by
  rw [← cof_tail]
  have e4 : (4.0 : ℝ) * T - 2.0 = 2 * (2 * T - 1) := by norm_num; ring
  have := clenshaw_top (2 * T - 1) ((COF.drop 1).take 26)
  simp only at this
  rw [e4]
  unfold clenshaw cofRev clenshawStep
  rw [show (0.0 : ℝ) = 0 by norm_num, ← this]
  norm_num
  ring

theorem two_rel : Rel (2.0 : F64) 2 0 := by
  have := rel_self (a := (2.0 : F64)) (by decide +kernel) (by rw [two_val]; norm_num)
  rwa [two_val] at this

/-- `t = 2/(2+z)` -/
theorem t_rel {z : F64} (hf : z.isFin = true) (h0 : 0 ≤ z.val) (h1 : z.val ≤ 2^100) : Rel (2.0 / (2.0 + z)) (2 / (2 + z.val)) (1 / 2^51) := by
  have S := add_spec (a := 2.0) (b := z) (by decide +kernel) hf
  have r1 : Rel (2.0 + z) (2 + z.val) (1 / 2^53) := by
    have := rel_round (a := 2.0 + z) (x := 2 + z.val) (A := 2 + z.val) (ε := 0) (by rw [S.2, two_val]) (mid_of (by norm_num; linarith) (by norm_num at h1 ⊢; linarith)) (by norm_num) (by simp)
    exact this.mono (by norm_num)
  have := rel_div (η := 1 / 2^52) two_rel r1 (mid_of ?_ ?_) (by norm_num) (by norm_num) (by norm_num)
  · exact this.mono (by norm_num)
  · rw [div_le_div_iff₀ (by norm_num) (by linarith)]
    norm_num at h1 ⊢
    linarith
  · rw [div_le_iff₀ (by linarith)]
    have : (1:ℝ) ≤ 2^200 := by norm_num
    nlinarith

theorem t_in {z : F64} (hf : z.isFin = true) (h0 : 0 ≤ z.val) (h1 : z.val ≤ 2^100) : FlErr.In (2.0 / (2.0 + z)) (2 / (2 + z.val)) ⟨0, 2^160 + 2^109, 2^109⟩ := by
  have r := t_rel hf h0 h1
  have t1 : 2 / (2 + z.val) ≤ 1 := by rw [div_le_one (by linarith)]; linarith
  have t0 : 0 < 2 / (2 + z.val) := by positivity
  refine ⟨r.fin, ?_, ?_, ?_⟩
  · show ((0:ℤ):ℝ) / _ ≤ _
    push_cast; rw [zero_div]
    exact (r.val_pos (by norm_num)).le
  · refine r.bounds.2.trans ?_
    show _ ≤ ((2^160 + 2^109 : ℤ) : ℝ) / FlErr.U
    have e : ((2^160 + 2^109 : ℤ) : ℝ) / FlErr.U = 1 + 1 / 2^51 := by unfold FlErr.U; norm_num
    rw [e]
    nlinarith
  · refine r.err.trans ?_
    show _ ≤ ((2^109 : ℕ) : ℝ) / FlErr.U
    have e : ((2^109 : ℕ) : ℝ) / FlErr.U = 1 / 2^51 := by unfold FlErr.U; norm_num
    rw [e]
    nlinarith

variable [Libm F64]

/-- the result for arguments up to `N/10`, error of the exponent at most `e` units -/
theorem erfccheb_rel (L : LibmUlp) {z : F64} (N e : ℕ) (hf : z.isFin = true) (h0 : 0 ≤ z.val) (h1 : z.val ≤ N / 10) (hN : N ≤ 262)
    (hw : within (fun i => if i = 1 then ⟨-2^161, 2^158, 2^112⟩ else if i = 2 then ⟨-2^158, 2^158, 2^108⟩ else ⟨0, N * 2^160 / 10 + 1, 0⟩)
      (.sub (.add (.neg (.mul (.var 0) (.var 0))) (.var 1)) (.var 2)) (-2^170) (2^170) e = true) (he : e ≤ 2^119) :
    ∃ v, erfccheb z = .ok v ∧ Rel v (erfcR z.val) ((e / 2^160 : ℝ) + 62 / 10^15) := by
  have hn := isFin_notNaN hf
  have hN' : (N:ℝ) ≤ 262 := by exact_mod_cast hN
  have hz26 : z.val ≤ 26.2 := by norm_num; linarith
  have hle : F64.le 0.0 z = true := le_iff.2 ⟨nn_zero, hn, by rw [Verif.zero_val]; exact h0⟩
  unfold erfccheb
  simp only [ar_le]
  rw [if_pos hle]
  refine ⟨_, rfl, ?_⟩
  have hcap : z.val ≤ 2^100 := hz26.trans (by norm_num)
  have rt := t_rel hf h0 hcap
  have W := expo_acc (t_in hf h0 hcap)
  have hP := expo_real (2 / (2 + z.val))
  generalize 0.5 * ((COF : List ℝ).headD 0.0 + (4.0 * (2 / (2 + z.val)) - 2.0) * (clenshaw (4.0 * (2 / (2 + z.val)) - 2.0) cofRev).1) = W1 at *
  generalize (clenshaw (4.0 * (2 / (2 + z.val)) - 2.0) cofRev).2 = D1 at *
  generalize 0.5 * ((COF : List F64).headD 0.0 + (4.0 * (2.0 / (2.0 + z)) - 2.0) * (clenshaw (4.0 * (2.0 / (2.0 + z)) - 2.0) cofRev).1) = W2 at *
  generalize (clenshaw (4.0 * (2.0 / (2.0 + z)) - 2.0) cofRev).2 = D2 at *
  have hin : ∀ i : ℕ, FlErr.In ((fun i => if i = 1 then W2 else if i = 2 then D2 else z) i) ((fun i => if i = 1 then W1 else if i = 2 then D1 else z.val) i)
      ((fun i => if i = 1 then ⟨-2^161, 2^158, 2^112⟩ else if i = 2 then ⟨-2^158, 2^158, 2^108⟩ else ⟨0, N * 2^160 / 10 + 1, 0⟩) i) := by
    intro i
    by_cases i1 : i = 1
    · simp only [i1, if_true]; exact W.1
    by_cases i2 : i = 2
    · simp only [i2, if_true, if_neg (by norm_num : ¬ (2 = 1))]; exact W.2
    simp only [i1, i2, if_false]
    refine in_self ?_ ?_ hf
    · push_cast; rw [zero_div]; exact h0
    · rw [le_div_iff₀ FlErr.U_pos]
      have h3 : (N:ℝ) * 2^160 / 10 ≤ (((N:ℤ) * 2^160 / 10 + 1 : ℤ) : ℝ) := by
        rw [div_le_iff₀ (by norm_num)]
        have := (Int.lt_ediv_add_one_mul_self ((N:ℤ) * 2^160) (b := 10) (by norm_num)).le
        exact_mod_cast this
      refine le_trans ?_ h3
      unfold FlErr.U
      rw [mul_div_right_comm]
      exact mul_le_mul_of_nonneg_right h1 (by positivity)
  have hE := within_sound hin hw
  simp only [evF, evR, if_true, if_neg (by norm_num : ¬ (0 = 1)), if_neg (by norm_num : ¬ (0 = 2)), if_neg (by norm_num : ¬ (2 = 1))] at hE
  have hX : -(z.val * z.val) + W1 - D1 = -z.val^2 + eP (2 / (2 + z.val)) := by rw [← hP]; ring
  rw [hX] at hE
  have hη : (e:ℝ) / FlErr.U ≤ 1 / 2^41 := by
    unfold FlErr.U
    have : (e:ℝ) ≤ 2^119 := by exact_mod_cast he
    refine (div_le_div_of_nonneg_right this (by positivity)).trans ?_
    norm_num
  have hη0 : 0 ≤ (e:ℝ) / FlErr.U := div_nonneg (Nat.cast_nonneg _) FlErr.U_pos.le
  have hsq : z.val^2 ≤ 686.44 := by norm_num at hz26 ⊢; nlinarith
  have hPb : -2.3 ≤ eP (2 / (2 + z.val)) ∧ eP (2 / (2 + z.val)) ≤ 1 := by
    have a1 := abs_le.1 W.1.err
    have a2 := abs_le.1 W.2.err
    have b1 := W.1.lo
    have b2 := W.1.hi
    have b3 := W.2.lo
    have b4 := W.2.hi
    unfold FlErr.U at a1 a2 b1 b2 b3 b4
    rw [← hP]
    norm_num at a1 a2 b1 b2 b3 b4 ⊢
    constructor <;> linarith [a1.1, a1.2, a2.1, a2.2]
  have hR := rel_exp L hE.fin hE.err (hη.trans (by norm_num)) (by norm_num at hsq hPb; linarith [hPb.1]) (by nlinarith [hPb.2, sq_nonneg z.val])
  have hacc := erfc_exact_acc h0
  have eG : Real.exp (-z.val^2) * eG0 z.val = 2 / (2 + z.val) * Real.exp (-z.val^2 + eP (2 / (2 + z.val))) := by
    unfold eG0; rw [Real.exp_add]; ring
  rw [eG] at hacc
  have hm : Mid (2 / (2 + z.val) * Real.exp (-z.val^2 + eP (2 / (2 + z.val)))) := by
    constructor
    · have e1 : (1:ℝ) / 2^995 ≤ Real.exp (-z.val^2 + eP (2 / (2 + z.val))) := by
        have l2 := Real.log_two_gt_d9
        rw [← Real.log_le_log_iff (by positivity) (Real.exp_pos _), Real.log_exp, one_div, Real.log_inv, Real.log_pow]
        norm_num at l2 hsq hPb ⊢
        linarith [hPb.1]
      have e2 : (1:ℝ) / 2^5 ≤ 2 / (2 + z.val) := by
        rw [div_le_div_iff₀ (by norm_num) (by linarith)]; norm_num at hz26 ⊢; linarith
      calc (1:ℝ) / 2^1000 = 1 / 2^5 * (1 / 2^995) := by rw [div_mul_div_comm, ← pow_add, one_mul]
        _ ≤ _ := mul_le_mul e2 e1 (by positivity) (by positivity)
    · have e1 : Real.exp (-z.val^2 + eP (2 / (2 + z.val))) ≤ 3 := by
        calc _ ≤ Real.exp 1 := Real.exp_le_exp.2 (by nlinarith [hPb.2, sq_nonneg z.val])
          _ ≤ 3 := by have := Real.exp_one_lt_d9; norm_num at this ⊢; linarith
      have e2 : 2 / (2 + z.val) ≤ 1 := by rw [div_le_one (by linarith)]; linarith
      calc _ ≤ (1:ℝ) * 3 := mul_le_mul e2 e1 (Real.exp_pos _).le (by norm_num)
        _ ≤ 2^2 := by norm_num
        _ ≤ _ := pow_le_pow_right₀ (by norm_num) (by norm_num)
  have hsm : ((e:ℝ) / FlErr.U)^2 ≤ 1 / 10^24 := by
    calc ((e:ℝ) / FlErr.U)^2 ≤ (1 / 2^41)^2 := pow_le_pow_left₀ hη0 hη 2
      _ ≤ _ := by norm_num
  have hq0 : 0 ≤ ((e:ℝ) / FlErr.U)^2 := sq_nonneg _
  have hU : (e / 2^160 : ℝ) = (e:ℝ) / FlErr.U := rfl
  rw [hU]
  generalize (e:ℝ) / FlErr.U = η at *
  have hM := rel_mul rt hR hm (by norm_num at hη hsm ⊢; nlinarith)
  refine ⟨hM.fin, erfcR_pos _, ?_⟩
  have hM2 : Rel (2.0 / (2.0 + z) * Libm.exp (-(z * z) + W2 - D2)) (2 / (2 + z.val) * Real.exp (-z.val^2 + eP (2 / (2 + z.val)))) (η + 15 / 10^16) :=
    hM.mono (by norm_num at hη hsm ⊢; nlinarith)
  have hme := hM2.err
  generalize 2 / (2 + z.val) * Real.exp (-z.val^2 + eP (2 / (2 + z.val))) = A at *
  have hC := erfcR_pos z.val
  generalize erfcR z.val = C at *
  generalize (2.0 / (2.0 + z) * Libm.exp (-(z * z) + W2 - D2)).val = v at *
  have k := abs_le.1 hacc
  refine (abs_sub_le _ A _).trans ((add_le_add hme hacc).trans ?_)
  have hA : A ≤ (1 + 6 / 10^14) * C := by linarith [k.2]
  have : (η + 15 / 10^16) * A ≤ (η + 15 / 10^16) * ((1 + 6 / 10^14) * C) := mul_le_mul_of_nonneg_left hA (by positivity)
  have h9 : (η + 15 / 10^16) * (1 + 6 / 10^14) + 6 / 10^14 ≤ η + 62 / 10^15 := by norm_num at hη ⊢; linarith
  calc _ ≤ (η + 15 / 10^16) * ((1 + 6 / 10^14) * C) + 6 / 10^14 * C := by linarith
    _ = ((η + 15 / 10^16) * (1 + 6 / 10^14) + 6 / 10^14) * C := by ring
    _ ≤ _ := mul_le_mul_of_nonneg_right h9 hC.le

theorem erfccheb_rel4 (L : LibmUlp) {z : F64} (hf : z.isFin = true) (h0 : 0 ≤ z.val) (h1 : z.val ≤ 4) :
    ∃ v, erfccheb z = .ok v ∧ Rel v (erfcR z.val) (8 / 10^14) := by
  obtain ⟨v, e, R⟩ := erfccheb_rel L 40 (2^114) hf h0 (by norm_num; exact h1) (by norm_num) (by decide +kernel) (by norm_num)
  exact ⟨v, e, R.mono (by norm_num)⟩

theorem erfccheb_rel26 (L : LibmUlp) {z : F64} (hf : z.isFin = true) (h0 : 0 ≤ z.val) (h1 : z.val ≤ 26.2) :
    ∃ v, erfccheb z = .ok v ∧ Rel v (erfcR z.val) (3 / 10^13) := by
  obtain ⟨v, e, R⟩ := erfccheb_rel L 262 (264 * 2^110) hf h0 (by norm_num at h1 ⊢; exact h1) (by norm_num) (by decide +kernel) (by norm_num)
  exact ⟨v, e, R.mono (by norm_num)⟩

end Verif
