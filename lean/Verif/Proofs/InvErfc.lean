import Verif.Proofs.ErfcReal

/-!
The starting value of `inverfc` (src/error.rs:78-80) compared with the true inverse of `erfc`.

With `s = √(-ln(p/2))` the starting value is `s - rho s`.  On each piece `[a/2²⁰, b/2²⁰]` of the range of `s` an integer computation shows that
the true inverse is within `H/2²⁰` of it.
-/

namespace Verif
namespace InvErfc
open ZPoly

/-! ## `exp` from both sides, in units of `2⁻⁶⁰` -/

def upS (N k acc : ℕ) : ℕ := 2^60 + N * acc / (k * 2^42) + 1
def loS (N k acc : ℕ) : ℕ := 2^60 + N * acc / (k * 2^42)
def upI : ℕ := 11 * 2^60 / 10 + 1
def loI : ℕ := 2^60
def expUp (N : ℕ) : ℕ := upS N 1 (upS N 2 (upS N 3 (upS N 4 (upS N 5 (upS N 6 (upS N 7 (upS N 8 (upS N 9 (upS N 10 upI)))))))))
def expLo (N : ℕ) : ℕ := loS N 1 (loS N 2 (loS N 3 (loS N 4 (loS N 5 (loS N 6 (loS N 7 (loS N 8 (loS N 9 loI))))))))

theorem up_step {N acc k : ℕ} (hk : 0 < k) {X : ℝ} (h : X ≤ acc / 2^60) :
    1 + (N / 2^42 : ℝ) / k * X ≤ (upS N k acc : ℝ) / 2^60 := by
  have hk' : (0:ℝ) < k := by exact_mod_cast hk
  have h1 : ((N * acc : ℕ) : ℝ) < ((N * acc / (k * 2^42) : ℕ) + 1 : ℝ) * ((k * 2^42 : ℕ) : ℝ) := by
    exact_mod_cast Nat.lt_div_mul_add (a := N * acc) (b := k * 2^42) (by positivity) |>.trans_eq (by ring)
  have h2 : (N / 2^42 : ℝ) / k * X ≤ (N / 2^42 : ℝ) / k * (acc / 2^60) := mul_le_mul_of_nonneg_left h (by positivity)
  have h3 : (N / 2^42 : ℝ) / k * (acc / 2^60) ≤ ((N * acc / (k * 2^42) : ℕ) + 1 : ℝ) / 2^60 := by
    rw [div_div, div_mul_div_comm, div_le_div_iff₀ (by positivity) (by positivity)]
    push_cast at h1 ⊢
    nlinarith
  unfold upS
  rw [Nat.cast_add, Nat.cast_add, add_assoc, add_div]
  have e : ((2^60 : ℕ) : ℝ) / 2^60 = 1 := by norm_num
  rw [e, Nat.cast_one]
  linarith

theorem lo_step {N acc k : ℕ} (hk : 0 < k) {X : ℝ} (h : acc / 2^60 ≤ X) :
    (loS N k acc : ℝ) / 2^60 ≤ 1 + (N / 2^42 : ℝ) / k * X := by
  have hk' : (0:ℝ) < k := by exact_mod_cast hk
  have h1 : ((N * acc / (k * 2^42) : ℕ) : ℝ) * ((k * 2^42 : ℕ) : ℝ) ≤ ((N * acc : ℕ) : ℝ) := by
    exact_mod_cast Nat.div_mul_le_self (N * acc) (k * 2^42)
  have h2 : (N / 2^42 : ℝ) / k * (acc / 2^60) ≤ (N / 2^42 : ℝ) / k * X := mul_le_mul_of_nonneg_left h (by positivity)
  have h3 : ((N * acc / (k * 2^42) : ℕ) : ℝ) / 2^60 ≤ (N / 2^42 : ℝ) / k * (acc / 2^60) := by
    rw [div_div, div_mul_div_comm, div_le_div_iff₀ (by positivity) (by positivity)]
    push_cast at h1 ⊢
    nlinarith
  unfold loS
  rw [Nat.cast_add, add_div]
  have e : ((2^60 : ℕ) : ℝ) / 2^60 = 1 := by norm_num
  rw [e]
  linarith

theorem exp_up {N : ℕ} (hN : N ≤ 2^42) : Real.exp (N / 2^42) ≤ expUp N / 2^60 := by
  have hu0 : (0:ℝ) ≤ N / 2^42 := by positivity
  have hu1 : (N:ℝ) / 2^42 ≤ 1 := by rw [div_le_one (by positivity)]; exact_mod_cast hN
  have h := Real.exp_bound' hu0 hu1 (n := 10) (by norm_num)
  refine h.trans ?_
  have h0 : (11/10 : ℝ) ≤ (upI : ℝ) / 2^60 := by unfold upI; norm_num
  unfold expUp
  have := up_step (N := N) (k := 1) (by norm_num) <| up_step (N := N) (k := 2) (by norm_num) <| up_step (N := N) (k := 3) (by norm_num) <|
    up_step (N := N) (k := 4) (by norm_num) <| up_step (N := N) (k := 5) (by norm_num) <| up_step (N := N) (k := 6) (by norm_num) <|
    up_step (N := N) (k := 7) (by norm_num) <| up_step (N := N) (k := 8) (by norm_num) <| up_step (N := N) (k := 9) (by norm_num) <|
    up_step (N := N) (k := 10) (by norm_num) h0
  refine le_trans (le_of_eq ?_) this
  generalize (N:ℝ) / 2^42 = u
  simp only [Finset.sum_range_succ, Finset.sum_range_zero, Nat.factorial]
  push_cast
  ring

theorem exp_lo (N : ℕ) : (expLo N : ℝ) / 2^60 ≤ Real.exp (N / 2^42) := by
  have hu0 : (0:ℝ) ≤ N / 2^42 := by positivity
  refine le_trans ?_ (Real.sum_le_exp_of_nonneg hu0 10)
  have h0 : (loI : ℝ) / 2^60 ≤ (1:ℝ) := by unfold loI; norm_num
  unfold expLo
  have := lo_step (N := N) (k := 1) (by norm_num) <| lo_step (N := N) (k := 2) (by norm_num) <| lo_step (N := N) (k := 3) (by norm_num) <|
    lo_step (N := N) (k := 4) (by norm_num) <| lo_step (N := N) (k := 5) (by norm_num) <| lo_step (N := N) (k := 6) (by norm_num) <|
    lo_step (N := N) (k := 7) (by norm_num) <| lo_step (N := N) (k := 8) (by norm_num) <| lo_step (N := N) (k := 9) (by norm_num) h0
  refine this.trans (le_of_eq ?_)
  generalize (N:ℝ) / 2^42 = u
  simp only [Finset.sum_range_succ, Finset.sum_range_zero, Nat.factorial]
  push_cast
  ring

/-! ## The exponent polynomial at `n/2²⁰` -/

/-- Horner's rule, highest coefficient first -/
def horn (n : ℕ) : List ℕ → ℕ → ℕ
  | [], acc => acc
  | c :: cs, acc => horn n cs (acc * n + c)

/-- the positive coefficients of `eP·10¹⁸`, the one of degree `k` multiplied by `2^(20(26-k))` -/
def pPos : List ℕ := [272467777455915008, 0, 24345793040101020503769264160768, 0, 267508303872350610147859326231632392623226880, 0, 800067532151469201685632426151839121723076095627933777920, 0, 758249621505716195350941789279908620670557253395186730753301250310144, 0, 200767053437455460359556188109581317629808226179386835700807087985538940530589696, 0, 1668693662576899629786503776248073499856036807485350720753012020912143592622191987237322752, 7240166114806218030276988743305339203599451219166980438918665527755401589296070542601236909129728, 0, 949873830480187636552822513115570025026569846658908072471108924890117296807966264427647509813503468723240960, 0, 333746142037598393289493902604991982739051952279589790802908056353389933531659097234232608431028519396434105755758493696, 303807622845896993983776948235360570125418312989823351813950781035058516003759266603717711256537947718658250341809441594146816, 73673643447435778123409164585533437092671775398671214276307837976579171294482636819776194169436321954509346740777009475866236813312, 0, 0, 0, 248094286943118518052026538774891838560934560377996417386660320579820132942209871224200607023407420966267405523603302954078372857614476107910724490385948672, 1170655706341935551870799127368068863835751037087584781337000675563698627263533408589010304800328579413550842940267365109961533286935780489080661735786876560736256, 3273390607896257564730835178065852898393286720707500734479766714178053293854788544636170219143371951449029850884090411948181061029035142828043885362708076843479118905344, 0]
/-- the negative coefficients -/
def pNeg : List ℕ := [0, 3769629044950694291832832, 0, 97194604894913438378462360786670977024, 0, 535426296378987823335426460598677711405984123977728, 0, 900298874184475581307329041863846894719523370932023139118350336, 0, 467313627861430805986388971009122761212996495057058168664112513213205053440, 0, 52663701700994208585289824810378175624487714049113794674839815054848717102274580578304, 0, 0, 4400765429136064590654576957184635635765537120508565995990104309884691477636453693845941599043267330048, 0, 393315733434697888403506273509368501709007008485898481221769459875673670150420156130027360702526296702535052820480, 0, 0, 0, 237104709200514825509393275943690653722359909458054872636745716255741077084806564875235898356418752887455022046180573925194923184381493248, 389226508687458774963215842159496650398559851499379355690238731997629380470294103659202863605695747403585585324811695778031176756475205813010432, 243995045697009943318571091026555258460075298823837520118278248422168267538316393969673818950630468157094792590762519429721174464398318723742723735552, 0, 0, 0, 4343742332082156290587782308534017823364560014739154422301933548056430589901076799845015606611107162673112751083220353896337609478159041976885958690210744740153521356505350144]

/-- the same polynomial, homogeneous: coefficient lists from low to high degree, scaled -/
def scl : List ℤ → ℕ → List ℤ
  | [], _ => []
  | c :: cs, k => (c * 2^(20 * k)) :: scl cs (k - 1)

def subL : List ℕ → List ℕ → List ℤ
  | a :: p, b :: q => ((a : ℤ) - b) :: subL p q
  | _, _ => []

theorem pol_eq : scl ePz 26 = (subL pPos pNeg).reverse := by decide +kernel
theorem pol_len : ePz.length = 27 ∧ pPos.length = 27 ∧ pNeg.length = 27 := by decide +kernel

theorem scl_ev (n : ℝ) : ∀ (p : List ℤ) (k : ℕ), p.length ≤ k + 1 → ev (scl p k) n = 2^(20 * k) * ev p (n / 2^20)
  | [], k, _ => by simp [scl, ev]
  | [c], k, _ => by simp [scl, ev]; ring
  | c :: d :: p, k, h => by
    have hk : 1 ≤ k := by simp only [List.length_cons] at h; omega
    have ih := scl_ev n (d :: p) (k - 1) (by simp only [List.length_cons] at h ⊢; omega)
    simp only [scl, ev] at ih ⊢
    rw [ih]
    obtain ⟨m, rfl⟩ : ∃ m, k = m + 1 := ⟨k - 1, by omega⟩
    simp only [Nat.add_sub_cancel]
    push_cast
    rw [show 20 * (m + 1) = 20 * m + 20 by ring, pow_add]
    field_simp

theorem ev_append (x : ℝ) : ∀ p q : List ℤ, ev (p ++ q) x = ev p x + x^p.length * ev q x
  | [], q => by simp [ev]
  | c :: p, q => by simp only [List.cons_append, ev, ev_append x p q, List.length_cons]; ring

theorem horn_ev (n : ℕ) : ∀ (p q : List ℕ) (a b : ℕ), p.length = q.length →
    (horn n p a : ℝ) - horn n q b = ((a:ℝ) - b) * n^p.length + ev (subL p q).reverse n
  | [], [], a, b, _ => by simp [horn, subL, ev]
  | c :: p, d :: q, a, b, h => by
    simp only [List.length_cons, Nat.add_right_cancel_iff] at h
    have hl : (subL p q).length = p.length := by
      clear * - h
      induction p generalizing q with
      | nil => cases q <;> simp_all [subL]
      | cons c p ih => cases q with
        | nil => simp at h
        | cons d q => simp only [subL, List.length_cons]; rw [ih q (by simpa using h)]
    simp only [horn, subL, List.reverse_cons, List.length_cons]
    rw [horn_ev n p q _ _ h, ev_append, List.length_reverse, hl]
    simp only [ev]
    push_cast
    ring

theorem eP_at (n : ℕ) : eP (n / 2^20) * (2^520 * 10^18) = (horn n pPos 0 : ℝ) - horn n pNeg 0 := by
  have h := horn_ev n pPos pNeg 0 0 (pol_len.2.1.trans pol_len.2.2.symm)
  rw [← pol_eq, scl_ev _ _ _ (by rw [pol_len.1])] at h
  rw [h, show 20 * 26 = 520 from rfl]
  unfold eP
  simp only [sub_self, zero_mul, zero_add]
  rw [div_mul_eq_mul_div, div_eq_iff (by positivity)]
  ring

/-! ## `erfcx` -/

theorem erfcxR_anti : Antitone erfcxR := by
  refine antitone_of_deriv_nonpos (fun x => (erfcxR_deriv x).differentiableAt) fun x => ?_
  rw [(erfcxR_deriv x).deriv]
  rcases le_or_gt x 0 with h | h
  · have := mul_nonneg (neg_nonneg.2 h) (erfcxR_pos x).le
    linarith [kap_pos]
  · have h1 := erfcxR_le h
    rw [le_div_iff₀ (by linarith)] at h1
    linarith

/-- `erfcx` between multiples of the code's approximation -/
theorem erfcx_eG0 {z : ℝ} (hz : 0 ≤ z) : erfcxR z * 10^13 ≤ eG0 z * (10^13 + 1) ∧ eG0 z * 10^13 ≤ erfcxR z * (10^13 + 1) := by
  have h := abs_le.1 (erfc_exact_acc hz)
  have hp := erfcR_pos z
  have he := Real.exp_pos (z^2)
  have e1 : Real.exp (z^2) * Real.exp (-z^2) = 1 := by rw [← Real.exp_add]; simp
  have k1 : (1 - 6 / 10^14) * erfcxR z ≤ eG0 z := by
    have := mul_le_mul_of_nonneg_left (show (1 - 6 / 10^14) * erfcR z ≤ Real.exp (-z^2) * eG0 z by linarith [h.1]) he.le
    rw [← mul_assoc, ← mul_assoc, e1, one_mul] at this
    unfold erfcxR; linarith
  have k2 : eG0 z ≤ (1 + 6 / 10^14) * erfcxR z := by
    have := mul_le_mul_of_nonneg_left (show Real.exp (-z^2) * eG0 z ≤ (1 + 6 / 10^14) * erfcR z by linarith [h.2]) he.le
    rw [← mul_assoc, ← mul_assoc, e1, one_mul] at this
    unfold erfcxR; linarith
  have hx := erfcxR_pos z
  constructor <;> nlinarith

/-! ## The rational function of the starting value -/

/-- the starting value is `s - rho s` with `s = √(-ln(p/2))` -/
noncomputable def rho (s : ℝ) : ℝ := (2.30753 / Real.sqrt 2 + 0.27061 * s) / (1 + 0.99229 * Real.sqrt 2 * s + 0.08962 * s^2)

theorem c0_bounds : (1.631670110 : ℝ) ≤ 2.30753 / Real.sqrt 2 ∧ 2.30753 / Real.sqrt 2 ≤ 1.631670111 := by
  have h : (0:ℝ) < Real.sqrt 2 := Real.sqrt_pos.2 two_pos
  have hs : Real.sqrt 2 * Real.sqrt 2 = 2 := Real.mul_self_sqrt two_pos.le
  have h1 : (1.4142135623 : ℝ) ≤ Real.sqrt 2 := Real.le_sqrt_of_sq_le (by norm_num)
  have h2 : Real.sqrt 2 ≤ 1.4142135624 := Real.sqrt_le_iff.2 (by norm_num)
  rw [le_div_iff₀ h, div_le_iff₀ h]
  norm_num at h1 h2 ⊢
  constructor <;> linarith

theorem c1_bounds : (1.403309975 : ℝ) ≤ 0.99229 * Real.sqrt 2 ∧ 0.99229 * Real.sqrt 2 ≤ 1.403309976 := by
  have h1 : (1.4142135623 : ℝ) ≤ Real.sqrt 2 := Real.le_sqrt_of_sq_le (by norm_num)
  have h2 : Real.sqrt 2 ≤ 1.4142135624 := Real.sqrt_le_iff.2 (by norm_num)
  norm_num at h1 h2 ⊢
  constructor <;> linarith

theorem rho_anti {s t : ℝ} (hs : 0 ≤ s) (h : s ≤ t) : rho t ≤ rho s := by
  obtain ⟨a1, a2⟩ := c0_bounds
  obtain ⟨b1, b2⟩ := c1_bounds
  unfold rho
  generalize 2.30753 / Real.sqrt 2 = c at *
  generalize 0.99229 * Real.sqrt 2 = d at *
  norm_num at a1 a2 b1 b2
  have ht : 0 ≤ t := hs.trans h
  have hd : 0 < d := by linarith
  have hc : 0 < c := by linarith
  rw [div_le_div_iff₀ (by positivity) (by positivity)]
  have key : 0 ≤ (t - s) * ((c * d - 0.27061) + 0.08962 * c * (s + t) + 0.27061 * 0.08962 * (s * t)) := by
    refine mul_nonneg (by linarith) ?_
    have : (1:ℝ) ≤ c * d := by nlinarith
    have := mul_nonneg hs ht
    have : 0 ≤ 0.08962 * c * (s + t) := by positivity
    norm_num at *
    nlinarith
  nlinarith [key]

theorem rho_le {a R : ℝ} (ha : 0 ≤ a) (h : 1.631670111 + 0.27061 * a ≤ R * (1 + 1.403309975 * a + 0.08962 * a^2)) (hR : 0 ≤ R) : rho a ≤ R := by
  obtain ⟨a1, a2⟩ := c0_bounds
  obtain ⟨b1, b2⟩ := c1_bounds
  unfold rho
  generalize 2.30753 / Real.sqrt 2 = c at *
  generalize 0.99229 * Real.sqrt 2 = d at *
  have hd : 0 < d := lt_of_lt_of_le (by norm_num) b1
  rw [div_le_iff₀ (by positivity)]
  have : R * (1 + 1.403309975 * a + 0.08962 * a^2) ≤ R * (1 + d * a + 0.08962 * a^2) :=
    mul_le_mul_of_nonneg_left (by nlinarith [mul_le_mul_of_nonneg_right b1 ha]) hR
  linarith

theorem le_rho {a R : ℝ} (ha : 0 ≤ a) (h : R * (1 + 1.403309976 * a + 0.08962 * a^2) ≤ 1.631670110 + 0.27061 * a) (hR : 0 ≤ R) : R ≤ rho a := by
  obtain ⟨a1, a2⟩ := c0_bounds
  obtain ⟨b1, b2⟩ := c1_bounds
  unfold rho
  generalize 2.30753 / Real.sqrt 2 = c at *
  generalize 0.99229 * Real.sqrt 2 = d at *
  have hd : 0 < d := lt_of_lt_of_le (by norm_num) b1
  rw [le_div_iff₀ (by positivity)]
  have : R * (1 + d * a + 0.08962 * a^2) ≤ R * (1 + 1.403309976 * a + 0.08962 * a^2) :=
    mul_le_mul_of_nonneg_left (by nlinarith [mul_le_mul_of_nonneg_right b2 ha]) hR
  linarith

/-! ## The check of one piece (all numbers in units of `2⁻²⁰`) -/

/-- `f n`, evaluating `n` first -/
def withNat (n : ℕ) (f : ℕ → Bool) : Bool := Nat.rec (f 0) (fun k _ => f (Nat.succ k)) n

theorem withNat_eq (n : ℕ) (f : ℕ → Bool) : withNat n f = f n := by cases n <;> rfl

def upR (a : ℕ) : ℕ := (1631670111 * 2^20 + 270610000 * a) * 2^40 / (10^9 * 2^40 + 1403309975 * a * 2^20 + 89620000 * a * a) + 1
def loR (b : ℕ) : ℕ := (1631670110 * 2^20 + 270610000 * b) * 2^40 / (10^9 * 2^40 + 1403309976 * b * 2^20 + 89620000 * b * b)

def upFin (n E : ℕ) : Bool :=
  withNat (horn n pPos 0) fun u => withNat (horn n pNeg 0) fun v => withNat ((v - u) / (2^480 * 10^18)) fun D =>
  withNat (E - D) fun A => withNat (expUp A) fun X =>
    Nat.ble 1 n && Nat.ble n (2^20) && Nat.ble u v && Nat.ble D E && Nat.ble A (2^42) && Nat.ble (X^4 * (10^13 + 1) * n) (2^21 * 10^13 * 2^240)
def loFin (n E : ℕ) : Bool :=
  withNat (horn n pPos 0) fun u => withNat (horn n pNeg 0) fun v => withNat ((v - u) / (2^480 * 10^18) + 1) fun D =>
  withNat (E - D) fun A => withNat (expLo A) fun X =>
    Nat.ble 1 n && Nat.ble n (2^20) && Nat.ble u v && Nat.ble D E && Nat.ble (2^21 * (10^13 + 1) * 2^240) (X^4 * 10^13 * n)

/-- `erfc(s - rho s + H) ≤ 2 e^(-s²)` for `a ≤ s ≤ b` -/
def upC (a b H : ℕ) : Bool :=
  withNat (upR a) fun R => withNat (2 * 2^40 / (2^21 + (a + H - R)) + 1) fun n => withNat ((R - H) * (2 * b - (R - H))) fun E =>
    Nat.ble R (a + H) && Nat.ble H R && Nat.ble R (2 * b) && upFin n E

/-- `2 e^(-s²) ≤ erfc(s - rho s - H)` for `a ≤ s ≤ b` -/
def loC (a b H : ℕ) : Bool :=
  withNat (loR b) fun R => withNat (2 * 2^40 / (2^21 + (b - (R + H)))) fun n => withNat ((R + H) * (2 * a - (R + H))) fun E =>
    Nat.ble b (R + H) || (Nat.ble (R + H) (2 * a) && loFin n E)

theorem ndiv_lt {x y : ℕ} (hy : 0 < y) : (x:ℝ) < ((x / y : ℕ) + 1 : ℝ) * y := by
  have := Nat.lt_div_mul_add (a := x) hy
  have h2 : x < (x / y + 1) * y := by rw [add_mul, one_mul]; exact this
  exact_mod_cast h2

theorem ndiv_le (x y : ℕ) : ((x / y : ℕ) : ℝ) * y ≤ x := by exact_mod_cast Nat.div_mul_le_self x y

theorem upR_sound (a : ℕ) : rho (a / 2^20) ≤ upR a / 2^20 := by
  refine rho_le (by positivity) ?_ (by positivity)
  have h := ndiv_lt (x := (1631670111 * 2^20 + 270610000 * a) * 2^40) (y := 10^9 * 2^40 + 1403309975 * a * 2^20 + 89620000 * a * a) (by positivity)
  have e : (((1631670111 * 2^20 + 270610000 * a) * 2^40 / (10^9 * 2^40 + 1403309975 * a * 2^20 + 89620000 * a * a) : ℕ) + 1 : ℝ) = upR a := by
    unfold upR; rw [Nat.cast_add, Nat.cast_one]
  rw [e] at h
  generalize ((upR a : ℕ) : ℝ) = R at *
  push_cast at h
  norm_num at h ⊢
  nlinarith

theorem loR_sound (b : ℕ) : (loR b : ℝ) / 2^20 ≤ rho (b / 2^20) := by
  refine le_rho (by positivity) ?_ (by positivity)
  have h := ndiv_le ((1631670110 * 2^20 + 270610000 * b) * 2^40) (10^9 * 2^40 + 1403309976 * b * 2^20 + 89620000 * b * b)
  change ((loR b : ℕ) : ℝ) * _ ≤ _ at h
  generalize ((loR b : ℕ) : ℝ) = R at *
  push_cast at h
  norm_num at h ⊢
  nlinarith

/-- the code's approximation of `erfcx` at `2·2²⁰/n - 2` -/
theorem eG0_at {n : ℕ} (hn : 1 ≤ n) : eG0 (2 * 2^20 / n - 2) = n / 2^20 * Real.exp (eP (n / 2^20)) := by
  have hn' : (0:ℝ) < n := by exact_mod_cast hn
  have e : 2 / (2 + (2 * 2^20 / n - 2)) = (n:ℝ) / 2^20 := by field_simp; ring
  unfold eG0
  rw [e]

theorem eP_40 {n : ℕ} (h : horn n pPos 0 ≤ horn n pNeg 0) :
    eP (n / 2^20) * 2^40 * ((2^480 * 10^18 : ℕ) : ℝ) = -((horn n pNeg 0 - horn n pPos 0 : ℕ) : ℝ) := by
  rw [Nat.cast_sub h, neg_sub, ← eP_at, Nat.cast_mul, Nat.cast_pow, Nat.cast_pow, Nat.cast_ofNat, Nat.cast_ofNat, show 520 = 40 + 480 from rfl, pow_add]
  ring

theorem up_fin {n E : ℕ} (h : upFin n E = true) : 1 ≤ n ∧ erfcxR (2 * 2^20 / n - 2) * Real.exp (E / 2^40) ≤ 2 := by
  unfold upFin at h
  simp only [withNat_eq, Bool.and_eq_true, Nat.ble_eq] at h
  obtain ⟨⟨⟨⟨⟨h1, h2⟩, h3⟩, h6⟩, h4⟩, h5⟩ := h
  refine ⟨h1, ?_⟩
  have q2 := eP_40 h3
  have hA : eP (n / 2^20) + E / 2^40 ≤ ((E - (horn n pNeg 0 - horn n pPos 0) / (2^480 * 10^18) : ℕ) : ℝ) / 2^40 := by
    have h0 := ndiv_le (horn n pNeg 0 - horn n pPos 0) (2^480 * 10^18)
    have hp : (0:ℝ) < ((2^480 * 10^18 : ℕ) : ℝ) := by positivity
    rw [le_div_iff₀ (by positivity), Nat.cast_sub h6, add_mul, div_mul_cancel₀ _ (by positivity)]
    generalize ((2^480 * 10^18 : ℕ) : ℝ) = Y at *
    have : eP (n / 2^20) * 2^40 * Y ≤ -(((horn n pNeg 0 - horn n pPos 0) / (2^480 * 10^18) : ℕ) : ℝ) * Y := by linarith
    linarith [le_of_mul_le_mul_right this hp]
  generalize E - (horn n pNeg 0 - horn n pPos 0) / (2^480 * 10^18) = A at *
  clear q2 h6
  have hE := exp_up h4
  have hn' : (0:ℝ) < n := by exact_mod_cast h1
  have hn2 : (n:ℝ) ≤ 2^20 := by exact_mod_cast h2
  have hz : (0:ℝ) ≤ 2 * 2^20 / n - 2 := by rw [sub_nonneg, le_div_iff₀ hn']; linarith
  have hG := (erfcx_eG0 hz).1
  rw [eG0_at h1] at hG
  have hx := Real.exp_le_exp.2 hA
  rw [Real.exp_add, show (A:ℝ) / 2^40 = (4:ℕ) * (A / 2^42) by push_cast; ring, Real.exp_nat_mul] at hx
  have hp : Real.exp (A / 2^42) ^ 4 ≤ (expUp A / 2^60 : ℝ) ^ 4 := pow_le_pow_left₀ (Real.exp_pos _).le hE 4
  have h5' : (expUp A : ℝ) ^ 4 * (10^13 + 1) * n ≤ 2^21 * 10^13 * 2^240 := by exact_mod_cast h5
  have hE0 : (0:ℝ) ≤ expUp A := by positivity
  clear h5
  generalize (expUp A : ℝ) = X at *
  have hq := Real.exp_pos (E / 2^40 : ℝ)
  generalize Real.exp (E / 2^40 : ℝ) = q at *
  generalize erfcxR (2 * 2^20 / n - 2) = w at *
  generalize Real.exp (eP (n / 2^20)) = v at *
  generalize Real.exp (A / 2^42) ^ 4 = u at *
  have k1 : v * q ≤ X^4 / 2^240 := hx.trans (hp.trans (le_of_eq (by rw [div_pow, ← pow_mul])))
  have k2 := mul_le_mul_of_nonneg_right hG hq.le
  have k3 := mul_le_mul_of_nonneg_left k1 (show (0:ℝ) ≤ n / 2^20 * (10^13 + 1) by positivity)
  have k4 : (n:ℝ) / 2^20 * (10^13 + 1) * (X^4 / 2^240) ≤ 2 * 10^13 := by
    rw [div_mul_eq_mul_div, div_mul_div_comm, div_le_iff₀ (by positivity)]
    norm_num at h5' ⊢
    linarith
  have : w * q * 10^13 ≤ 2 * 10^13 := by linarith
  exact le_of_mul_le_mul_right this (by positivity)

theorem lo_fin {n E : ℕ} (h : loFin n E = true) : 1 ≤ n ∧ 2 ≤ erfcxR (2 * 2^20 / n - 2) * Real.exp (E / 2^40) := by
  unfold loFin at h
  simp only [withNat_eq, Bool.and_eq_true, Nat.ble_eq] at h
  obtain ⟨⟨⟨⟨h1, h2⟩, h3⟩, h6⟩, h5⟩ := h
  refine ⟨h1, ?_⟩
  have q2 := eP_40 h3
  have hA : ((E - ((horn n pNeg 0 - horn n pPos 0) / (2^480 * 10^18) + 1) : ℕ) : ℝ) / 2^40 ≤ eP (n / 2^20) + E / 2^40 := by
    have h0 := ndiv_lt (x := horn n pNeg 0 - horn n pPos 0) (y := 2^480 * 10^18) (by positivity)
    have hp : (0:ℝ) < ((2^480 * 10^18 : ℕ) : ℝ) := by positivity
    rw [div_le_iff₀ (by positivity), Nat.cast_sub h6, add_mul, div_mul_cancel₀ _ (by positivity), Nat.cast_add, Nat.cast_one]
    generalize ((2^480 * 10^18 : ℕ) : ℝ) = Y at *
    have : -((((horn n pNeg 0 - horn n pPos 0) / (2^480 * 10^18) : ℕ) : ℝ) + 1) * Y ≤ eP (n / 2^20) * 2^40 * Y := by linarith
    linarith [le_of_mul_le_mul_right this hp]
  generalize E - ((horn n pNeg 0 - horn n pPos 0) / (2^480 * 10^18) + 1) = A at *
  clear q2 h6
  have hE := exp_lo A
  have hn' : (0:ℝ) < n := by exact_mod_cast h1
  have hn2 : (n:ℝ) ≤ 2^20 := by exact_mod_cast h2
  have hz : (0:ℝ) ≤ 2 * 2^20 / n - 2 := by rw [sub_nonneg, le_div_iff₀ hn']; linarith
  have hG := (erfcx_eG0 hz).2
  rw [eG0_at h1] at hG
  have hx := Real.exp_le_exp.2 hA
  rw [Real.exp_add, show (A:ℝ) / 2^40 = (4:ℕ) * (A / 2^42) by push_cast; ring, Real.exp_nat_mul] at hx
  have hp : (expLo A / 2^60 : ℝ) ^ 4 ≤ Real.exp (A / 2^42) ^ 4 := pow_le_pow_left₀ (by positivity) hE 4
  have h5' : (2^21 * (10^13 + 1) * 2^240 : ℝ) ≤ (expLo A : ℝ) ^ 4 * 10^13 * n := by exact_mod_cast h5
  clear h5
  generalize (expLo A : ℝ) = X at *
  have hq := Real.exp_pos (E / 2^40 : ℝ)
  generalize Real.exp (E / 2^40 : ℝ) = q at *
  generalize erfcxR (2 * 2^20 / n - 2) = w at *
  generalize Real.exp (eP (n / 2^20)) = v at *
  generalize Real.exp (A / 2^42) ^ 4 = u at *
  have k1 : X^4 / 2^240 ≤ v * q := le_trans (le_trans (le_of_eq (by rw [div_pow, ← pow_mul])) hp) hx
  have k2 := mul_le_mul_of_nonneg_right hG hq.le
  have k3 := mul_le_mul_of_nonneg_left k1 (show (0:ℝ) ≤ n / 2^20 * 10^13 by positivity)
  have k4 : 2 * (10^13 + 1) ≤ (n:ℝ) / 2^20 * 10^13 * (X^4 / 2^240) := by
    rw [div_mul_eq_mul_div, div_mul_div_comm, le_div_iff₀ (by positivity)]
    norm_num at h5' ⊢
    linarith
  have : 2 * (10^13 + 1) ≤ w * q * (10^13 + 1) := by linarith
  exact le_of_mul_le_mul_right this (by positivity)

theorem sq_split (s r : ℝ) : Real.exp (-(s - r)^2) = Real.exp (-s^2) * Real.exp (r * (2 * s - r)) := by
  rw [← Real.exp_add]; congr 1; ring

theorem erfcR_of_x (y : ℝ) : erfcR y = Real.exp (-y^2) * erfcxR y := by
  unfold erfcxR
  rw [← mul_assoc, ← Real.exp_add]; simp

theorem up_sound {a b H : ℕ} (h : upC a b H = true) {s : ℝ} (h1 : a / 2^20 ≤ s) (h2 : s ≤ b / 2^20) :
    erfcR (s - rho s + H / 2^20) ≤ 2 * Real.exp (-s^2) := by
  unfold upC at h
  simp only [withNat_eq, Bool.and_eq_true, Nat.ble_eq] at h
  obtain ⟨⟨⟨h3, h4⟩, h6⟩, h5⟩ := h
  obtain ⟨-, hf⟩ := up_fin h5
  have hr := upR_sound a
  have ha' : (0:ℝ) ≤ a / 2^20 := by positivity
  have hm := (rho_anti ha' h1).trans hr
  have hl := ndiv_lt (x := 2 * 2^40) (y := 2^21 + (a + H - upR a)) (by positivity)
  generalize (2 * 2^40 / (2^21 + (a + H - upR a)) : ℕ) = m at *
  have hm0' : (0:ℝ) ≤ m := by positivity
  generalize upR a = R at *
  rw [Nat.cast_mul, Nat.cast_sub (show R - H ≤ 2 * b by omega), Nat.cast_sub h4, Nat.cast_mul, Nat.cast_ofNat] at hf
  rw [Nat.cast_add _ (a + H - R), Nat.cast_sub h3, Nat.cast_add] at hl
  have h3' : (R:ℝ) ≤ a + H := by exact_mod_cast h3
  have h4' : (H:ℝ) ≤ R := by exact_mod_cast h4
  -- the point where `erfcx` is evaluated lies to the left
  have hy' : 2 * 2^20 / ((m + 1 : ℕ) : ℝ) - 2 ≤ (a - R + H) / 2^20 := by
    push_cast at hl ⊢
    rw [sub_le_iff_le_add, div_le_iff₀ (by positivity)]
    norm_num at hl ⊢
    nlinarith
  have hle : 2 * 2^20 / ((m + 1 : ℕ) : ℝ) - 2 ≤ s - rho s + H / 2^20 := by
    refine hy'.trans ?_
    rw [show ((a:ℝ) - R + H) / 2^20 = a / 2^20 - R / 2^20 + H / 2^20 by ring]
    linarith
  have hw := erfcxR_anti hle
  set ra : ℝ := ((R:ℝ) - H) / 2^20 with hra
  have hra' : ra = R / 2^20 - H / 2^20 := by rw [hra]; ring
  have e0 : s - rho s + H / 2^20 = s - (rho s - H / 2^20) := by ring
  have hE : (rho s - H / 2^20) * (2 * s - (rho s - H / 2^20)) ≤ ((R:ℝ) - H) * (2 * b - ((R:ℝ) - H)) / 2^40 := by
    have e : ((R:ℝ) - H) * (2 * b - ((R:ℝ) - H)) / 2^40 = ra * (2 * (b / 2^20) - ra) := by rw [hra]; ring
    rw [e]
    have k0 : 0 ≤ ra := by rw [hra]; exact div_nonneg (by linarith) (by positivity)
    have k1 : rho s - H / 2^20 ≤ ra := by linarith
    have k2 : ra ≤ s := by
      have : (0:ℝ) ≤ (a - R + H) / 2^20 := div_nonneg (by linarith) (by positivity)
      have e : ((a:ℝ) - R + H) / 2^20 = a / 2^20 - R / 2^20 + H / 2^20 := by ring
      linarith
    nlinarith [mul_nonneg (sub_nonneg.2 k1) (show (0:ℝ) ≤ 2 * s - ra - (rho s - H / 2^20) by linarith), mul_nonneg k0 (sub_nonneg.2 h2)]
  rw [erfcR_of_x, e0, sq_split, ← e0]
  have hs := Real.exp_pos (-s^2)
  calc Real.exp (-s^2) * Real.exp ((rho s - H / 2^20) * (2 * s - (rho s - H / 2^20))) * erfcxR (s - rho s + H / 2^20)
      ≤ Real.exp (-s^2) * Real.exp (((R:ℝ) - H) * (2 * b - ((R:ℝ) - H)) / 2^40) * erfcxR (2 * 2^20 / ((m + 1 : ℕ) : ℝ) - 2) :=
        mul_le_mul (mul_le_mul_of_nonneg_left (Real.exp_le_exp.2 hE) hs.le) hw (erfcxR_pos _).le (by positivity)
    _ ≤ 2 * Real.exp (-s^2) := by
        have := mul_le_mul_of_nonneg_left hf hs.le
        linarith

theorem lo_sound {a b H : ℕ} (h : loC a b H = true) {s : ℝ} (h0 : 0 ≤ s) (h1 : a / 2^20 ≤ s) (h2 : s ≤ b / 2^20) (hp : 2 * Real.exp (-s^2) ≤ 1) :
    2 * Real.exp (-s^2) ≤ erfcR (s - rho s - H / 2^20) := by
  rcases le_or_gt (s - rho s - H / 2^20) 0 with hy | hy
  · have := erfcR_anti.antitone hy
    rw [erfcR_zero] at this
    linarith
  have hr := loR_sound b
  have hm := hr.trans (rho_anti h0 h2)
  unfold loC at h
  simp only [withNat_eq, Bool.or_eq_true, Bool.and_eq_true, Nat.ble_eq] at h
  generalize loR b = R at *
  have hyy : s - rho s - H / 2^20 ≤ (b - R - H) / 2^20 := by
    rw [show ((b:ℝ) - R - H) / 2^20 = b / 2^20 - R / 2^20 - H / 2^20 by ring]; linarith
  have hy3 : (0:ℝ) < b - R - H := by
    have := lt_of_lt_of_le hy hyy
    by_contra hc
    exact absurd (div_nonpos_of_nonpos_of_nonneg (not_lt.1 hc) (by positivity)) (not_le.2 this)
  have hy4 : R + H < b := by
    have : (R:ℝ) + H < b := by linarith
    exact_mod_cast this
  rcases h with h | ⟨h4, h5⟩
  · omega
  obtain ⟨hn1, hf⟩ := lo_fin h5
  have hl := ndiv_le (2 * 2^40) (2^21 + (b - (R + H)))
  generalize (2 * 2^40 / (2^21 + (b - (R + H))) : ℕ) = n at *
  have hn0 : (0:ℝ) < n := by exact_mod_cast hn1
  rw [Nat.cast_mul, Nat.cast_sub h4, Nat.cast_add, Nat.cast_mul, Nat.cast_ofNat] at hf
  rw [Nat.cast_add _ (b - (R + H)), Nat.cast_sub hy4.le, Nat.cast_add] at hl
  have hle : s - rho s - H / 2^20 ≤ 2 * 2^20 / (n : ℝ) - 2 := by
    refine hyy.trans ?_
    push_cast at hl
    rw [le_sub_iff_add_le, le_div_iff₀ hn0]
    norm_num at hl ⊢
    nlinarith
  have hw := erfcxR_anti hle
  set rb : ℝ := ((R:ℝ) + H) / 2^20 with hrb
  have hrb' : rb = R / 2^20 + H / 2^20 := by rw [hrb]; ring
  have e0 : s - rho s - H / 2^20 = s - (rho s + H / 2^20) := by ring
  have hE : ((R:ℝ) + H) * (2 * a - ((R:ℝ) + H)) / 2^40 ≤ (rho s + H / 2^20) * (2 * s - (rho s + H / 2^20)) := by
    have e : ((R:ℝ) + H) * (2 * a - ((R:ℝ) + H)) / 2^40 = rb * (2 * (a / 2^20) - rb) := by rw [hrb]; ring
    rw [e]
    have k0 : 0 ≤ rb := by rw [hrb]; positivity
    have k1 : rb ≤ rho s + H / 2^20 := by linarith
    nlinarith [mul_nonneg (sub_nonneg.2 k1) (show (0:ℝ) ≤ 2 * s - rb - (rho s + H / 2^20) by linarith), mul_nonneg k0 (sub_nonneg.2 h1)]
  rw [erfcR_of_x, e0, sq_split, ← e0]
  have hs := Real.exp_pos (-s^2)
  calc 2 * Real.exp (-s^2) ≤ Real.exp (-s^2) * Real.exp (((R:ℝ) + H) * (2 * a - ((R:ℝ) + H)) / 2^40) * erfcxR (2 * 2^20 / (n : ℝ) - 2) := by
        have := mul_le_mul_of_nonneg_left hf hs.le
        linarith
    _ ≤ _ := mul_le_mul (mul_le_mul_of_nonneg_left (Real.exp_le_exp.2 hE) hs.le) hw (erfcxR_pos _).le (by positivity)

/-! ## All pieces -/

/-- `c` pieces of width `w` from `a` -/
def runC (H w a : ℕ) : ℕ → Bool
  | 0 => true
  | c+1 => withNat (a + w * c) (fun x => upC x (x + w) H && loC x (x + w) H) && runC H w a c

def segC (H : ℕ) : ℕ → List (ℕ × ℕ) → Bool
  | _, [] => true
  | a, (w, c) :: l => runC H w a c && segC H (a + w * c) l

def segEnd : ℕ → List (ℕ × ℕ) → ℕ
  | a, [] => a
  | a, (w, c) :: l => segEnd (a + w * c) l

/-- the starting value is within `H` of the inverse at `p = 2e^(-s²)` -/
def Near (H : ℕ) (s : ℝ) : Prop :=
  erfcR (s - rho s + H / 2^20) ≤ 2 * Real.exp (-s^2) ∧ (2 * Real.exp (-s^2) ≤ 1 → 2 * Real.exp (-s^2) ≤ erfcR (s - rho s - H / 2^20))

theorem run_sound (H w a : ℕ) : ∀ c : ℕ, runC H w a c = true → ∀ s : ℝ, a / 2^20 ≤ s → s ≤ (a + w * c : ℕ) / 2^20 → 0 < c → Near H s
  | 0, _, _, _, _, h => absurd h (lt_irrefl _)
  | c+1, h, s, h1, h2, _ => by
    simp only [runC, withNat_eq, Bool.and_eq_true] at h
    have ha : (0:ℝ) ≤ a / 2^20 := by positivity
    rcases le_or_gt (((a + w * c : ℕ) : ℝ) / 2^20) s with h3 | h3
    · rw [show a + w * (c + 1) = a + w * c + w by ring] at h2
      exact ⟨up_sound h.1.1 h3 h2, lo_sound h.1.2 (ha.trans h1) h3 h2⟩
    · rcases Nat.eq_zero_or_pos c with rfl | hc
      · exfalso
        simp only [mul_zero, add_zero] at h3
        linarith
      · exact run_sound H w a c h.2 s h1 h3.le hc

theorem seg_sound (H : ℕ) : ∀ (l : List (ℕ × ℕ)) (a : ℕ), segC H a l = true → ∀ s : ℝ, a / 2^20 ≤ s → s ≤ segEnd a l / 2^20 → l.all (fun x => 0 < x.2) = true →
    l ≠ [] → Near H s
  | [], _, _, _, _, _, _, h => absurd rfl h
  | (w, c) :: l, a, h, s, h1, h2, hc, _ => by
    simp only [segC, Bool.and_eq_true] at h
    simp only [List.all_cons, Bool.and_eq_true, decide_eq_true_eq] at hc
    rcases le_or_gt s (((a + w * c : ℕ) : ℝ) / 2^20) with h3 | h3
    · exact run_sound H w a c h.1 s h1 h3 hc.1
    · rcases eq_or_ne l [] with rfl | hl
      · exfalso
        simp only [segEnd] at h2
        linarith
      · exact seg_sound H l (a + w * c) h.2 s h3.le h2 hc.2 hl

def segs1 : List (ℕ × ℕ) := [(512, 1), (1024, 1), (2048, 6), (1024, 463), (2048, 106), (4096, 70), (8192, 44), (4096, 287), (8192, 118), (16384, 55), (32768, 35), (65536, 29), (72725, 1)]
def segs2 : List (ℕ × ℕ) := [(32768, 312), (65536, 51), (131072, 29), (262144, 12)]

theorem segs1_ok : segC 3145 872939 segs1 = true := by decide +kernel
theorem segs2_ok : segC 2460 8388608 segs2 = true := by decide +kernel

/-- the starting value is within `3/1000` of the inverse for `√ln 2 ≤ s ≤ 8` -/
theorem near1 {s : ℝ} (h1 : 0.83251 ≤ s) (h2 : s ≤ 8) : Near 3145 s := by
  refine seg_sound 3145 segs1 872939 segs1_ok s (le_trans ?_ h1) (h2.trans ?_) (by decide) (by decide)
  · norm_num
  · have : segEnd 872939 segs1 = 8388608 := by decide +kernel
    rw [this]; norm_num

/-- … and within `2.35/1000` for `8 ≤ s ≤ 27.5` -/
theorem near2 {s : ℝ} (h1 : 8 ≤ s) (h2 : s ≤ 27.5) : Near 2460 s := by
  refine seg_sound 2460 segs2 8388608 segs2_ok s (le_trans ?_ h1) (h2.trans ?_) (by decide) (by decide)
  · norm_num
  · have : segEnd 8388608 segs2 = 28901376 := by decide +kernel
    rw [this]; norm_num

end InvErfc
end Verif
