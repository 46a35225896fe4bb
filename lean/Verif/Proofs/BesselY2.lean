import Verif.Proofs.BesselY
import Verif.Proofs.EulerGamma
import Verif.Proofs.BesselLeft2
import Verif.Proofs.BesselRight4
import Verif.Proofs.BesselBound

/-! The part of `Y_0`, `Y_1` without the logarithm, against the rational approximations used for `x < 8` (exact arithmetic). -/

namespace Verif
namespace Bes
open ZPoly Real

/-- `γ - ln 2`, to 19 digits -/
def qg : ℚ := -1159315156584124488 / 10^19

theorem qg_close : |Real.eulerMascheroniConstant - Real.log 2 - (qg:ℝ)| ≤ 3e-17 := by
  have h1 := abs_le.1 Eul.gamma_close
  have h2 := abs_le.1 Eul.log2
  unfold qg; push_cast
  rw [abs_le]; constructor <;> norm_num at * <;> linarith [h1.1, h1.2, h2.1, h2.2]

def hq : ℕ → ℚ
  | 0 => 0
  | k + 1 => hq k + 1 / (k + 1)
theorem hq_eq : ∀ k, ((hq k : ℚ) : ℝ) = hm k
  | 0 => by rw [hm_zero]; simp [hq]
  | k + 1 => by rw [hm_succ, hq]; push_cast; rw [hq_eq k]

/-- the coefficients of `W_n(u) = 2 qg S_n - SH_n` at `u = -y/4` -/
def wq (n k : ℕ) : ℚ := (2 * qg - hq k - hq (k + n)) * (-1 / 4) ^ k / (k.factorial * (k + n).factorial)

/-- a list of integers is `L` times a list of rationals -/
def listOK (L : ℤ) (c : ℕ → ℚ) : ℕ → List ℤ → Bool
  | _, [] => true
  | k, a :: p => decide ((a:ℚ) = L * c k) && listOK L c (k + 1) p

theorem listOK_sound (L : ℤ) (c : ℕ → ℚ) (y : ℝ) : ∀ (p : List ℤ) (k : ℕ), listOK L c k p = true →
    ev p y = L * ∑ i ∈ Finset.range p.length, ((c (k + i) : ℚ) : ℝ) * y ^ i
  | [], k, _ => by simp [ev]
  | a :: p, k, h => by
    simp only [listOK, Bool.and_eq_true, decide_eq_true_eq] at h
    have ih := listOK_sound L c y p (k + 1) h.2
    have ha : (a:ℝ) = L * ((c k : ℚ) : ℝ) := by exact_mod_cast congrArg (fun t : ℚ => (t:ℝ)) h.1
    rw [ev, ih, List.length_cons, Finset.sum_range_succ', ha]
    simp only [pow_zero, mul_one, add_zero]
    rw [mul_add, add_comm, ← mul_assoc, mul_comm y, mul_assoc, Finset.mul_sum (a := y)]
    congr 2
    refine Finset.sum_congr rfl fun i _ => ?_
    rw [show k + 1 + i = k + (i + 1) by ring, pow_succ]; ring

/-- the coefficients of the truncated series `W_0`, times `L0` -/
def W0z : List ℤ := [-19013195490777271028493844330182820178906419272989076968448062512381798135091279683313706467328000000000000, 45754219508457606094001501117831669850323549896758221912492550401313089326412819920828426616832000000000000, -4140917489146203141402532570967165765820126402250856140480176111745119326420801245051776663552000000000000, 138752870436794582826504400139878426831575817353328731142030664431124633947244479029216018432000000000000, -2446068889174655539070259453379759794281328859189048592269010319163199845425694984831500288000000000000, 26685131200544476849951620143350872943116942296236783268088352691047017974256949848315002880000000000, -198186341142657949532355149198925477615995280438833548999446022735367135932339929502187520000000000, 1067450414114577362856632240242768345270699259009939383495469096282420081287448619909120000000000, -4362144823965271743642410569598165935367229498209768974411464106153203442529096171520000000000, 13991301977479107356876276466249077541678172025207636087366762875781492106571284480000000000, -36166012004378039503201128703584743771810001159946209092690289589453730266428211200000000, 76954113947212837273725918692534312672061555921990888197281557003003574930636800000000, -137151302445685210890840373175965319379722660962188847337169369796881206476800000000, 207734621518949646760929982928008056875866800449087127824215044078226636800000000, -270709706084113753717035284773348131016613742690922642632927352140595200000000, 306743308414882393221607565534271571289833224445729158481030391267328000000, -305005745002815244217076402913815299054439346087782381329131241472000000, 268284418436310078621814730545639709311665697584586835059802112000000, -210244171908790964974458020521165683946661556778230582607872000000, 147720581802856877050297579479285970947660357879661068288000000, -93585375228156586596473686289242571522287723674788167680000, 53733212175216204711335206629086243266603017956229120000, -28090169836478442413975875207678431439361062993920000, 13426747736341227399749615949186404271909765120000, -5890646893135800541933504144612154631905280000, 2380475874828263058250931257844861852762112, -888965075740831397238598837960377904128, 307701543338745999491974910137303808, -98993562943235561062491999406028, 29678316857833103764117716827]
/-- common denominator -/
def WL0 : ℤ := 82001841271526576673756080070571929611193890157021905340761069546435279585280000000000000000000000000000000

/-- the coefficients of the truncated series `W_1`, times `L1` -/
def W1z : List ℤ := [-3030451102869115431067497732022642493703009282900329469276273961764512331611138390499411194019840000000000000, 840066745010976422673315166899797415775841792495789401201315261419262489118592298812426399252480000000000000, -45680104124354040615783454880013945658784279134853452307966400156328030742608012450517766635520000000000000, 1107379797539897014976253769335686451245928241280354403927177468215885340204333592719120138240000000000000, -15343746027687309672196264403144541265779069266438180757233536764803704928554169908989001728000000000000, 138059910812718053956526904069990354299550656698572035810021449912349713871284749241575014400000000000, -873014190662389527111975146328231585619397861153103574638338497728688868281456840723660800000000000, 4095299041968162992304542523862310296358831269784325451771507326483075304827932324659200000000000, -14825544441114170878783873574438111764784928723961738444530492129844011475096987238400000000000, 42686560168845484737235091921524462575603258733779179586664318067344476319713853440000000000, -100107004302039617377751554569233660597846992126622453154783495243964718908440576000000000, 194941580194909398433562467052362920793477260795264580329363892507508937326592000000000, -320284507606725198578341201886883191339779174691275091245775468762033553408000000000, 449968961880958746080448906632478205278098544341539799623317951596199936000000000, -546778683657507907616482093754192545177463644692078885265854704281190400000000, 580377366841654878093650439485642285176480420162142172151931983626240000000, -542772822983990907444612557139330708545933728672557143521996308480000000, 450634054358419307690593604284225363088782562640978058433003520000000, -334383704235881285869806098912569441575065615965627235696640000000, 223092886625930561703491608156555564037490536819491602432000000, -134550543932312836933763564844964789031839605249697382400000, 73715305212708047198722159793967058999913206303948800000, -36848587856462921472943084275754475790470951731200000, 16874248861328819905227755936483005339887206400000, -7105101948123874912536499373534585558286336000, 2760136984402771820990828374436379060879360, -992345986731452628753998708844864337920, 331149298247535385169973118004254080, -102843838372234201099129654557960, 29799623605895603764117716827]
/-- common denominator -/
def WL1 : ℤ := 2460055238145797300212682402117157888335816704710657160222832086393058387558400000000000000000000000000000000

set_option maxRecDepth 100000

theorem W0_ok : listOK WL0 (wq 0) 0 W0z = true := by decide +kernel
theorem W1_ok : listOK WL1 (wq 1) 0 W1z = true := by decide +kernel

/-- `W_n` -/
noncomputable def Wn (n : ℕ) (u : ℝ) : ℝ := 2 * (qg:ℝ) * SB n u - SH n u

theorem qg_neg : (qg:ℝ) < 0 := by unfold qg; push_cast; norm_num
theorem qg_ge : -0.12 ≤ (qg:ℝ) := by unfold qg; push_cast; norm_num

theorem Wn_hasSum (n : ℕ) (u : ℝ) :
    HasSum (fun k => (2 * (qg:ℝ) - hm k - hm (k + n)) / (k.factorial * (k + n).factorial : ℝ) * u ^ k) (Wn n u) := by
  have h1 := (sb_summable n u).hasSum.mul_left (2 * (qg:ℝ))
  have h2 := (sh_summable n u).hasSum
  have h := h1.sub h2
  unfold Wn SB SH PS
  refine h.congr_fun fun k => ?_
  unfold shc
  ring

theorem Wn_trunc (n : ℕ) {u : ℝ} (hu : |u| ≤ 16) :
    |Wn n u - ∑ k ∈ Finset.range 30, (2 * (qg:ℝ) - hm k - hm (k + n)) / (k.factorial * (k + n).factorial : ℝ) * u ^ k| ≤
      2 * |(2 * (qg:ℝ) - hm 30 - hm (30 + n)) / ((30:ℕ).factorial * (30 + n).factorial : ℝ) * u ^ 30| := by
  refine trunc_half (Wn_hasSum n u) 30 fun j => ?_
  set k := j + 30 with hk
  have q0 := qg_neg
  have h1 := fpos k
  have h2 := fpos (k + n)
  have h3 := hm_nonneg k
  have h4 := hm_nonneg (k + n)
  have h5 : 1 ≤ hm k := by
    have := hm_mono (show 1 ≤ k by omega)
    rw [show (1:ℕ) = 0 + 1 from rfl, hm_succ, hm_zero] at this
    simpa using this
  have k30 : (30:ℝ) ≤ k := by rw [hk]; push_cast; linarith [Nat.cast_nonneg (α := ℝ) j]
  have n0 : (0:ℝ) ≤ n := Nat.cast_nonneg n
  have e : (2 * (qg:ℝ) - hm (k + 1) - hm (k + 1 + n)) / ((k + 1).factorial * (k + 1 + n).factorial : ℝ) * u ^ (k + 1) =
      (2 * (qg:ℝ) - hm (k + 1) - hm (k + 1 + n)) * (u / (((k:ℝ) + 1) * (k + n + 1))) * (u ^ k / (k.factorial * (k + n).factorial : ℝ)) := by
    rw [show k + 1 + n = (k + n) + 1 by omega, Nat.factorial_succ, Nat.factorial_succ (k + n), pow_succ]
    push_cast
    field_simp
  have e2 : (2 * (qg:ℝ) - hm k - hm (k + n)) / (k.factorial * (k + n).factorial : ℝ) * u ^ k =
      (2 * (qg:ℝ) - hm k - hm (k + n)) * (u ^ k / (k.factorial * (k + n).factorial : ℝ)) := by ring
  rw [e, e2, abs_mul, abs_mul _ (u ^ k / _), mul_right_comm]
  refine mul_le_mul_of_nonneg_right ?_ (abs_nonneg _)
  clear_value k
  rw [abs_mul, show k + 1 + n = (k + n) + 1 by omega, hm_succ k, hm_succ (k + n)]
  have b1 : (1:ℝ) / (k + 1) ≤ 1 / 30 := one_div_le_one_div_of_le (by norm_num) (by linarith)
  have b2 : (1:ℝ) / ((k + n : ℕ) + 1) ≤ 1 / 30 := one_div_le_one_div_of_le (by norm_num) (by push_cast; linarith)
  have p1 : (0:ℝ) ≤ 1 / (k + 1) := by positivity
  have p2 : (0:ℝ) ≤ 1 / ((k + n : ℕ) + 1) := by positivity
  rw [abs_of_neg (by linarith : 2 * (qg:ℝ) - hm k - hm (k + n) < 0),
    abs_of_neg (by linarith : 2 * (qg:ℝ) - (hm k + 1 / (k + 1)) - (hm (k + n) + 1 / ((k + n : ℕ) + 1)) < 0)]
  have a1 : |u / (((k:ℝ) + 1) * (k + n + 1))| ≤ 1 / 4 := by
    rw [abs_div, abs_of_pos (by positivity : (0:ℝ) < ((k:ℝ) + 1) * (k + n + 1)), div_le_iff₀ (by positivity)]
    nlinarith
  calc _ ≤ (2 * -(2 * (qg:ℝ) - hm k - hm (k + n))) * (1 / 4) := by
        refine mul_le_mul (by linarith) a1 (abs_nonneg _) (by linarith)
    _ = _ := by ring

theorem wq_term (n k : ℕ) (y : ℝ) : ((wq n k : ℚ) : ℝ) * y ^ k = (2 * (qg:ℝ) - hm k - hm (k + n)) / (k.factorial * (k + n).factorial : ℝ) * (-(y / 4)) ^ k := by
  unfold wq
  push_cast
  rw [hq_eq, hq_eq, show -(y / 4) = (-1/4) * y by ring, mul_pow]
  ring

theorem hm_30 : hm 30 ≤ 4 ∧ hm 31 ≤ 5 := by
  rw [← hq_eq, ← hq_eq]
  have h : hq 30 ≤ 4 ∧ hq 31 ≤ 5 := by decide +kernel
  exact ⟨by exact_mod_cast h.1, by exact_mod_cast h.2⟩

theorem Wn_tail (n : ℕ) (hn : n ≤ 1) {u : ℝ} (hu : |u| ≤ 16) :
    2 * |(2 * (qg:ℝ) - hm 30 - hm (30 + n)) / ((30:ℕ).factorial * (30 + n).factorial : ℝ) * u ^ 30| ≤ 1 / 10 ^ 26 := by
  have h2 : |u| ^ 30 ≤ 16 ^ 30 := pow_le_pow_left₀ (abs_nonneg _) hu 30
  have h3 : ((30:ℕ).factorial * (30:ℕ).factorial : ℝ) ≤ ((30:ℕ).factorial * (30 + n).factorial : ℝ) := by gcongr; omega
  have h4 : (0:ℝ) < ((30:ℕ).factorial * (30:ℕ).factorial : ℝ) := by positivity
  have h5 : |2 * (qg:ℝ) - hm 30 - hm (30 + n)| ≤ 10 := by
    have := hm_mono (show 30 + n ≤ 31 by omega)
    have := hm_30
    have := hm_nonneg 30
    have := hm_nonneg (30 + n)
    have := qg_neg
    have := qg_ge
    rw [abs_le]; constructor <;> linarith
  rw [abs_mul, abs_div, abs_of_pos (lt_of_lt_of_le h4 h3), abs_pow]
  calc 2 * (|2 * (qg:ℝ) - hm 30 - hm (30 + n)| / ((30:ℕ).factorial * (30 + n).factorial : ℝ) * |u| ^ 30)
      ≤ 2 * (10 / ((30:ℕ).factorial * (30:ℕ).factorial : ℝ) * 16 ^ 30) := by gcongr
    _ ≤ 1 / 10 ^ 26 := by norm_num [Nat.factorial]

theorem W0_len : W0z.length = 30 := by decide +kernel
theorem W1_len : W1z.length = 30 := by decide +kernel

theorem Wn_poly (n : ℕ) (hn : n ≤ 1) (L : ℤ) (hL : 0 < L) (p : List ℤ) (hp : listOK L (wq n) 0 p = true) (hl : p.length = 30) {y : ℝ} (h0 : 0 ≤ y) (h1 : y ≤ 64) :
    |Wn n (-(y / 4)) - ev p y / L| ≤ 1 / 10 ^ 26 := by
  have hu : |(-(y / 4))| ≤ 16 := by rw [abs_neg, abs_of_nonneg (by positivity)]; linarith
  have h := (Wn_trunc n hu).trans (Wn_tail n hn hu)
  have e := listOK_sound L (wq n) y p 0 hp
  rw [hl] at e
  simp only [zero_add, wq_term] at e
  rw [e, mul_div_cancel_left₀ _ (by exact_mod_cast hL.ne')]
  exact h

/-! ## the certificates for `x < 8` -/

/-- check of `|N/D - (s/10^25) T/L| ≤ 1/e` -/
def yOK (t : ℕ) (e s : ℤ) (Nz Dz : List ℤ) (A B : ℕ) (L : ℤ) (T : List ℤ) (r k : ℕ) : Bool :=
  fL Nz fun Nz => fL Dz fun Dz => fL (mul Dz T) fun DT =>
  fL (smul e (sub (smul (10 ^ (B + 25) * L) Nz) (smul (10 ^ A * s) DT))) fun Q => chkAll t (smul (10 ^ (A + 25) * L) Dz) Q r k

theorem yOK_sound (t : ℕ) (e s : ℤ) (he : 0 < e) (Nz Dz : List ℤ) (A B : ℕ) (L : ℤ) (hL : 0 < L) (T : List ℤ) (r k : ℕ)
    (h : yOK t e s Nz Dz A B L T r k = true) (y : ℝ) (hy0 : 0 ≤ y) (hy : y < 2 * r * k) (hD : 0 < ev Dz y) :
    |(ev Nz y / 10 ^ A) / (ev Dz y / 10 ^ B) - s / 10 ^ 25 * (ev T y / L)| ≤ 1 / (e:ℝ) := by
  simp only [yOK, fL_eq] at h
  have h1 := chkAll_sound t _ _ r y k h hy0 hy
  rw [ev_smul, ev_smul, ev_sub, ev_smul, ev_smul, ev_mul] at h1
  push_cast at h1
  have hL' : (0:ℝ) < L := by exact_mod_cast hL
  have he' : (0:ℝ) < e := by exact_mod_cast he
  have e1 : (ev Nz y / 10 ^ A) / (ev Dz y / 10 ^ B) - s / 10 ^ 25 * (ev T y / L) =
      (10 ^ (B + 25) * L * ev Nz y - 10 ^ A * s * (ev Dz y * ev T y)) / (10 ^ (A + 25) * L * ev Dz y) := by
    rw [pow_add, pow_add]; field_simp
  rw [e1, abs_div, abs_of_pos (by positivity : (0:ℝ) < 10 ^ (A + 25) * L * ev Dz y), div_le_div_iff₀ (by positivity) he', one_mul]
  rw [abs_mul, abs_of_pos he'] at h1
  linarith

/-- numerators -/
def y0N : List ℤ := comp Y0Rz [64, -1]
def y1N : List ℤ := comp Y1Rz [64, -1]

theorem y0_cert : yOK 300 (10 ^ 15) 3183098861837906715377675 y0N Y0Sz 31 36 WL0 W0z 4 8 = true := by decide +kernel
theorem y1_cert : yOK 300 (2 * 10 ^ 15) 1591549430918953357688838 y1N Y1Sz 30 32 WL1 W1z 2 16 = true := by decide +kernel

end Bes
end Verif
