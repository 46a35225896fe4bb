import Verif.Proofs.GammaCore2
import Verif.Proofs.FlErr
import Verif.Proofs.Rel
import Verif.Proofs.Gamma
import Verif.Proofs.GammaReal

/-! # The core polynomials of `gamma` in binary64: rounding errors, with and without fused multiply-add -/

namespace Verif
namespace FlErr
open F64

/-- bounds of an unrounded product -/
def B.praw (a b : B) : B := ⟨imin (a.l * b.l) (a.l * b.u) (a.u * b.l) (a.u * b.u) / UZ, imax (a.l * b.l) (a.l * b.u) (a.u * b.l) (a.u * b.u) / UZ + 1,
    (a.m * b.e + a.e * (b.m + b.e)) / UN + 1⟩

theorem praw_sound {a b : F64} {X Y : ℝ} {p q : B} (ha : In a X p) (hb : In b Y q) :
    ((p.praw q).l : ℝ) ≤ a.val * b.val * U ∧ a.val * b.val * U ≤ (p.praw q).u ∧ |a.val * b.val - X * Y| * U ≤ (p.praw q).e := by
  have hU := U_pos
  obtain ⟨e1, e2⟩ := prod_enclose (scale_lo ha.lo) (scale_hi ha.hi) (scale_lo hb.lo) (scale_hi hb.hi)
  refine ⟨?_, ?_, ?_⟩
  · have h1 := fdiv_le (imin (p.l * q.l) (p.l * q.u) (p.u * q.l) (p.u * q.u))
    have h2 : ((imin (p.l * q.l) (p.l * q.u) (p.u * q.l) (p.u * q.u) : ℤ) : ℝ) ≤ a.val * U * (b.val * U) := by
      unfold imin; push_cast; exact e1
    refine le_of_mul_le_mul_right (h1.trans (h2.trans (le_of_eq ?_))) hU
    ring
  · have h1 := le_cdiv (imax (p.l * q.l) (p.l * q.u) (p.u * q.l) (p.u * q.u))
    have h2 : a.val * U * (b.val * U) ≤ ((imax (p.l * q.l) (p.l * q.u) (p.u * q.l) (p.u * q.u) : ℤ) : ℝ) := by
      unfold imax; push_cast; exact e2
    refine le_of_mul_le_mul_right (le_trans (le_of_eq ?_) (h2.trans h1)) hU
    ring
  · have hA := scale_err (Ap.abs ha)
    have hB := scale_err (Ap.abs hb)
    have hea := scale_err ha.err
    have heb := scale_err hb.err
    have h1 := le_cdivN (p.m * q.e + p.e * (q.m + q.e)) UN (by decide)
    rw [UN_cast] at h1
    refine le_of_mul_le_mul_right (le_trans ?_ h1) hU
    push_cast
    have hY : |Y| * U ≤ q.m + q.e := by
      have : |Y| ≤ |b.val| + |b.val - Y| := by
        have := abs_sub b.val (b.val - Y); rwa [sub_sub_cancel] at this
      nlinarith
    have h3 : |a.val * b.val - X * Y| ≤ |a.val| * |b.val - Y| + |a.val - X| * |Y| := by
      rw [show a.val * b.val - X * Y = a.val * (b.val - Y) + (a.val - X) * Y by ring, ← abs_mul, ← abs_mul]
      exact abs_add_le _ _
    have h4 : (|a.val| * U) * (|b.val - Y| * U) ≤ p.m * q.e := mul_le_mul hA heb (by positivity) (by positivity)
    have h5 : (|a.val - X| * U) * (|Y| * U) ≤ p.e * (q.m + q.e) := mul_le_mul hea hY (by positivity) (by positivity)
    have : |a.val * b.val - X * Y| * U * U ≤ (|a.val| * |b.val - Y| + |a.val - X| * |Y|) * U * U := by
      have := mul_le_mul_of_nonneg_right (mul_le_mul_of_nonneg_right h3 hU.le) hU.le
      exact this
    nlinarith

/-- bounds of a fused multiply-add -/
def B.fma (a b c : B) : Option B := rnd ((a.praw b).l + c.l) ((a.praw b).u + c.u) ((a.praw b).e + c.e)

theorem fma_sound {a b c : F64} {X Y Z : ℝ} {p q s r : B} (ha : In a X p) (hb : In b Y q) (hc : In c Z s) (h : p.fma q s = some r) :
    In (F64.fma a b c) (X * Y + Z) r := by
  obtain ⟨-, s2⟩ := fma_spec ha.fin hb.fin hc.fin
  obtain ⟨e1, e2, e3⟩ := praw_sound ha hb
  have hU := U_pos
  refine rnd_sound s2 ?_ ?_ ?_ h
  · push_cast; have := scale_lo hc.lo; linarith
  · push_cast; have := scale_hi hc.hi; linarith
  · push_cast
    have h1 := scale_err hc.err
    have h2 : |a.val * b.val + c.val - (X * Y + Z)| ≤ |a.val * b.val - X * Y| + |c.val - Z| := by
      rw [show a.val * b.val + c.val - (X * Y + Z) = (a.val * b.val - X * Y) + (c.val - Z) by ring]
      exact abs_add_le _ _
    nlinarith

/-- bounds of `mulAdd` -/
def B.mulAdd (fma : Bool) (a b c : B) : Option B := if fma then a.fma b c else (a.mul b).bind fun p => p.add c

theorem mulAdd_sound [Cfg] {a b c : F64} {X Y Z : ℝ} {p q s r : B} (ha : In a X p) (hb : In b Y q) (hc : In c Z s)
    (h : B.mulAdd Cfg.fma p q s = some r) : In (mulAdd a b c) (mulAdd X Y Z) r := by
  unfold B.mulAdd at h
  unfold mulAdd
  have e : Arith.fma X Y Z = X * Y + Z := rfl
  have e' : Arith.fma a b c = F64.fma a b c := rfl
  rw [e, e', ite_self]
  split at h
  · rename_i hc'
    rw [if_pos hc']
    exact fma_sound ha hb hc h
  · rename_i hc'
    rw [if_neg hc']
    rw [Option.bind_eq_some_iff] at h
    obtain ⟨w, hw, h⟩ := h
    exact add_sound (mul_sound ha hb hw) hc h

/-- bounds of the Horner loop -/
def hornB (fma : Bool) (bx : B) : List Ex → B → Option B
  | [], s => some s
  | c :: cs, s => (bnd (fun _ => ⟨0, 0, 0⟩) c).bind fun bc => (B.mulAdd fma s bx bc).bind fun r => hornB fma bx cs r

theorem zero_in' : In (0.0 : F64) 0 ⟨0, 0, 0⟩ := by
  refine ⟨by decide +kernel, ?_, ?_, ?_⟩ <;> simp [Verif.zero_val]

theorem horn_sound [Cfg] {x : F64} {X : ℝ} {bx : B} (h : In x X bx) : ∀ (cs : List Ex) {s : F64} {S : ℝ} {b b' : B},
    In s S b → hornB Cfg.fma bx cs b = some b' →
    In ((cs.map (evF (fun _ => 0.0))).foldl (fun acc c => mulAdd acc x c) s) ((cs.map (evR (fun _ => 0))).foldl (fun acc c => mulAdd acc X c) S) b' := by
  intro cs
  induction cs with
  | nil =>
    intro s S b b' h1 hb
    simp only [hornB, Option.some.injEq] at hb
    subst hb
    exact h1
  | cons c cs ih =>
    intro s S b b' h1 hb
    simp only [hornB, Option.bind_eq_some_iff] at hb
    obtain ⟨bc, hc, r, hr, hb⟩ := hb
    have ic := bnd_sound (ρ := fun _ => (0.0 : F64)) (σ := fun _ => (0:ℝ)) (fun _ => zero_in') _ _ hc
    exact ih (s := mulAdd s x (evF (fun _ => 0.0) c)) (S := mulAdd S X (evR (fun _ => 0) c)) (mulAdd_sound h1 h ic hr) hb

/-- bound of the error of a Horner scheme in `x - c` -/
def polyB (fma : Bool) (m k : ℕ) (l u : ℤ) (cs : List Ex) : Option B :=
  (litB m k).bind fun bc => (B.sub ⟨l, u, 0⟩ bc).bind fun bx => hornB fma bx cs ⟨0, 0, 0⟩

end FlErr

open F64 FlErr

def hiEx : List Ex := [.lit 16738398919923317 21, .lit 9594018409379352 20, .lit 45576674678513316 20, .lit 2149849572114427 18, .lit 8882603286354344 18, .lit 3435019819741738 17, .lit 11526048279921955 17, .lit 3462685533605687 16, .lit 8588538228806464 16, .lit 17769198047099783 16, .lit 25925711651299808 16, .lit 2549256966718529 15]
def loEx : List Ex := [.lit 7377657774398435 22, .lit 48420884483658204 21, .lit 13276357775573943 20, .lit 9142528632013879 19, .lit 3228437222320849 18, .lit 1457680369337953 17, .lit 4673516042481417 17, .lit 15595585685363436 17, .lit 38477912014818527 17, .lit 8911679480264766 16, .lit 13170871791928587 16, .lit 16083594219855455 16]

theorem hiEx_F : (gammaPolyHi : List F64) = hiEx.map (evF (fun _ => 0.0)) := by
  simp [gammaPolyHi, hiEx, evF]
theorem loEx_F : (gammaPolyLo : List F64) = loEx.map (evF (fun _ => 0.0)) := by
  simp [gammaPolyLo, loEx, evF]
theorem hiEx_R : (gammaPolyHi : List ℝ) = hiEx.map (evR (fun _ => 0)) := by
  simp only [gammaPolyHi, hiEx, evR, List.map]
  norm_num
theorem loEx_R : (gammaPolyLo : List ℝ) = loEx.map (evR (fun _ => 0)) := by
  simp only [gammaPolyLo, loEx, evR, List.map]
  norm_num

/-- `10⁻¹⁴` in units -/
def polyLim : ℕ := 2^160 / 10^14
theorem polyLim_le : (polyLim : ℝ) * 10^14 ≤ 2^160 := by
  have h : polyLim * 10^14 ≤ 2^160 := by decide +kernel
  exact_mod_cast h

/-- the error computed by `polyB` is at most `10⁻¹⁴` -/
def polyOk (o : Option B) : Bool := match o with
  | some b => b.e ≤ polyLim
  | none => false

theorem check_hiB : ∀ b, polyOk (polyB b 325 2 (3 * 2^160) (7 * 2^159) hiEx) = true := by decide +kernel
theorem check_loB : ∀ b, polyOk (polyB b 275 2 (5 * 2^159) (3 * 2^160) loEx) = true := by decide +kernel

theorem polyOk_some {o : Option B} (h : polyOk o = true) : ∃ b, o = some b ∧ b.e ≤ polyLim := by
  cases o with
  | none => cases h
  | some b => exact ⟨b, rfl, of_decide_eq_true h⟩
theorem polyB_sound [Cfg] {z : F64} {m k : ℕ} {l u : ℤ} {cs : List Ex} {b : B} (hz : FlErr.In z z.val ⟨l, u, 0⟩) (hb : polyB Cfg.fma m k l u cs = some b) :
   FlErr.In (polynomial (z - OfScientific.ofScientific m true k) (cs.map (evF (fun _ => 0.0)))) (polynomial (z.val - (m:ℝ) / 10^k) (cs.map (evR (fun _ => 0)))) b := by
  unfold polyB at hb
  rw [Option.bind_eq_some_iff] at hb
  obtain ⟨bc, hbc, hb⟩ := hb
  rw [Option.bind_eq_some_iff] at hb
  obtain ⟨bx, hbx, hb⟩ := hb
  have hx := sub_sound hz (lit_sound hbc) hbx
  have hp := horn_sound hx cs zero_in' hb
  unfold polynomial
  have z0 : (0.0:ℝ) = 0 := by norm_num
  rw [z0]
  exact hp
theorem in_self_gam {z : F64} (hf : z.isFin = true) (l u : ℤ)
    (h1 : l / U ≤ z.val) (h2 : z.val ≤ u / U) : FlErr.In z z.val ⟨l, u, 0⟩ := ⟨hf, h1, h2, by simp⟩

theorem poly_round [Cfg] {z c : F64} {C : ℝ} {m k : ℕ} {l u : ℤ} {cs : List Ex} {pF : List F64} {pR : List ℝ} (hf : z.isFin = true)
    (h1 : l / U ≤ z.val) (h2 : z.val ≤ u / U) (hcF : c = OfScientific.ofScientific m true k) (hC : C = (m:ℝ) / 10^k)
    (hpF : pF = cs.map (evF (fun _ => 0.0))) (hpR : pR = cs.map (evR (fun _ => 0)))
    (hc : ∀ b, polyOk (polyB b m k l u cs) = true) :
    |(polynomial (z - c) pF).val - polynomial (z.val - C) pR| ≤ 1 / 10^14 := by
  obtain ⟨b, hb, hl⟩ := polyOk_some (hc Cfg.fma)
  rw [hcF, hC, hpF, hpR]
  refine (polyB_sound (in_self_gam hf l u h1 h2) hb).err.trans ?_
  have h3 : (b.e : ℝ) ≤ (polyLim : ℝ) := Nat.cast_le.2 hl
  have this := polyLim_le
  have hU : U = (2:ℝ)^160 := rfl
  rw [← hU] at this
  have hq : (0:ℝ) < 10^14 := by positivity
  have hU0 := FlErr.U_pos
  generalize (b.e : ℝ) = e at h3 ⊢
  generalize (polyLim : ℝ) = L at h3 this
  generalize U = u at this hU0 ⊢
  generalize (10:ℝ)^14 = q at this hq ⊢
  rw [div_le_div_iff₀ hU0 hq, one_mul]
  exact (mul_le_mul_of_nonneg_right h3 hq.le).trans this

/-- the core approximation in binary64 against the same approximation in exact arithmetic -/
theorem core_round [Cfg] {z : F64} (h1 : (5:ℝ)/2 ≤ z.val) (h2 : z.val ≤ 7/2) :
    |(gammaCore z).val - gammaCore z.val| ≤ 1 / 10^14 := by
  have hf : z.isFin = true := isFin_of_abs (b := 4) (by rw [abs_le]; constructor <;> linarith) (by norm_num)
  have hnn := isFin_notNaN hf
  have e3 : (3.0:ℝ) = 3 := by norm_num
  unfold gammaCore
  rw [ar_lt, ar_lt, rlt, rlt, e3]
  rcases lt_trichotomy z.val 3 with h | h | h
  · have c1 : F64.lt 3.0 z = false := by rw [lt_false_iff lit3_nn hnn, lit3_val]; exact h.le
    have c2 : F64.lt z 3.0 = true := by rw [lt_iff, lit3_val]; exact ⟨hnn, lit3_nn, h⟩
    rw [c1, c2, decide_eq_false (by linarith), decide_eq_true h]
    simp only [Bool.false_eq_true, if_false, if_true]
    exact poly_round (m := nat_lit 275) (k := nat_lit 2) hf (l := 5 * 2^159) (u := 3 * 2^160) (by unfold U; norm_num; linarith) (by unfold U; norm_num; linarith) rfl
      (by norm_num) loEx_F loEx_R check_loB
  · have c1 : F64.lt 3.0 z = false := by rw [lt_false_iff lit3_nn hnn, lit3_val]; exact h.le
    have c2 : F64.lt z 3.0 = false := by rw [lt_false_iff hnn lit3_nn, lit3_val]; exact h.ge
    rw [c1, c2, decide_eq_false (by linarith), decide_eq_false (by linarith)]
    simp only [Bool.false_eq_true, if_false]
    rw [show (2.0 : F64).val = 2 from by rw [val_of_int (x := (2.0 : F64)) 2 (by decide +kernel)]; norm_num]
    norm_num
  · have c1 : F64.lt 3.0 z = true := by rw [lt_iff, lit3_val]; exact ⟨lit3_nn, hnn, h⟩
    rw [c1, decide_eq_true h]
    simp only [if_true]
    exact poly_round (m := nat_lit 325) (k := nat_lit 2) hf (l := 3 * 2^160) (u := 7 * 2^159) (by unfold U; norm_num; linarith) (by unfold U; norm_num; linarith) rfl
      (by norm_num) hiEx_F hiEx_R check_hiB

end Verif
