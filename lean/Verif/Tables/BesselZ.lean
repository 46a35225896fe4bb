import Verif.Props.Series
import Verif.Proofs.ZPoly

/-! Generated by tools/gen_bessel_z.py from the tables of /repo/src/bessel.rs. Do not edit.
Each table times a power of ten, as an integer polynomial. -/

namespace Verif
namespace Bes
open ZPoly

theorem one0 : (1.0 : ℝ) = 1 := by norm_num

def J0Rz : List ℤ := [16823971442204620000000000000, 2058861258868952000000000000, 52889473200677500000000000, 555717390768015100000000, 2865540042042604000000, 7398972674152181000, 7925088479679688]
theorem J0Rz_eq (y : ℝ) : polySum y J0R = ev J0Rz y / 10 ^ 32 := by
  simp only [J0R, J0Rz, polySum_cons, polySum_nil, ev, one0]; push_cast; ring

def J0Sz : List ℤ := [10000000000000000000000000000000, 101968540580592900000000000000, 513029686706466600000000000, 1659702063950243000000000, 3728997574317067000000, 5709292619977798000, 4932979170744996]
theorem J0Sz_eq (y : ℝ) : polySum y J0S = ev J0Sz y / 10 ^ 31 := by
  simp only [J0S, J0Sz, polySum_cons, polySum_nil, ev, one0]; push_cast; ring

def J0PNz : List ℤ := [999999999999999900, 1039698629715637000, 257691017263339800, 15041524857496690, 105259841358527]
theorem J0PNz_eq (y : ℝ) : polySum y J0PN = ev J0PNz y / 10 ^ 18 := by
  simp only [J0PN, J0PNz, polySum_cons, polySum_nil, ev, one0]; push_cast; ring

def J0PDz : List ℤ := [10000000000000000000, 10407972625281090000, 2588070904043728000, 152995447772128400, 1168931211650012]
theorem J0PDz_eq (y : ℝ) : polySum y J0PD = ev J0PDz y / 10 ^ 19 := by
  simp only [J0PD, J0PDz, polySum_cons, polySum_nil, ev, one0]; push_cast; ring

def J0QNz : List ℤ := [-15624999999999920000, -19200393170656410000, -5827951791963418000, -437267497848272600, -3895839560412374]
theorem J0QNz_eq (y : ℝ) : polySum y J0QN = ev J0QNz y / 10 ^ 21 := by
  simp only [J0QN, J0QNz, polySum_cons, polySum_nil, ev, one0]; push_cast; ring

def J0QDz : List ℤ := [10000000000000000000, 12379804363583900000, 3838793938147116000, 310032348155086400, 4165515825072393]
theorem J0QDz_eq (y : ℝ) : polySum y J0QD = ev J0QDz y / 10 ^ 19 := by
  simp only [J0QD, J0QDz, polySum_cons, polySum_nil, ev, one0]; push_cast; ring

def J1Rz : List ℤ := [73096378318913570000000000000, 3551248884746503000000000000, 58206739017304270000000000, 450065034217062200000000, 1831596352149641000000, 3891583573305035000, 3524978592527982]
theorem J1Rz_eq (y : ℝ) : polySum y J1R = ev J1Rz y / 10 ^ 33 := by
  simp only [J1R, J1Rz, polySum_cons, polySum_nil, ev, one0]; push_cast; ring

def J1Sz : List ℤ := [10000000000000000000000000000000, 93983547684460720000000000000, 432894673710023000000000000, 1271526296341915000000000, 2566305357932989000000, 3477378203574266000, 2593535427519985]
theorem J1Sz_eq (y : ℝ) : polySum y J1S = ev J1Sz y / 10 ^ 31 := by
  simp only [J1S, J1Sz, polySum_cons, polySum_nil, ev, one0]; push_cast; ring

def J1PNz : List ℤ := [100000000000000000000, 101403911104531300000, 24267623486298630000, 1350308200342000000, 9516522033988099]
theorem J1PNz_eq (y : ℝ) : polySum y J1PN = ev J1PNz y / 10 ^ 20 := by
  simp only [J1PN, J1PNz, polySum_cons, polySum_nil, ev, one0]; push_cast; ring

def J1PDz : List ℤ := [100000000000000000000, 101220805635784500000, 24085803054889380000, 1309511056184273000, 7746422941504713]
theorem J1PDz_eq (y : ℝ) : polySum y J1PD = ev J1PDz y / 10 ^ 20 := by
  simp only [J1PD, J1PDz, polySum_cons, polySum_nil, ev, one0]; push_cast; ring

def J1QNz : List ℤ := [4687499999999991000, 5652407388406023000, 1676531273460512000, 123121681771581400, 1178364381441801]
theorem J1QNz_eq (y : ℝ) : polySum y J1QN = ev J1QNz y / 10 ^ 20 := by
  simp only [J1QN, J1QNz, polySum_cons, polySum_nil, ev, one0]; push_cast; ring

def J1QDz : List ℤ := [10000000000000000000, 12101193704636930000, 3626494789275638000, 276169582482931600, 3240517192670181]
theorem J1QDz_eq (y : ℝ) : polySum y J1QD = ev J1QDz y / 10 ^ 19 := by
  simp only [J1QD, J1QDz, polySum_cons, polySum_nil, ev, one0]; push_cast; ring

def Y0Rz : List ℤ := [-76537784571891040000000000000, -585476012999040300000000000000, 3720671300654721000000000000, 331372228462808900000000000, 424776123703653600000000, -41345626610196130000000, -338219033183747300000, -1017764126587862000, -1107646382675456]
theorem Y0Rz_eq (y : ℝ) : polySum y Y0R = ev Y0Rz y / 10 ^ 31 := by
  simp only [Y0R, Y0Rz, polySum_cons, polySum_nil, ev, one0]; push_cast; ring

def Y0Sz : List ℤ := [1000000000000000000000000000000000000, 11254945402578410000000000000000000, 64272105370814000000000000000000, 246252062429495900000000000000, 702937243234429100000000000, 1560784108184928000000000, 2702374957564761000000, 3468496737915257000, 2716600180811817]
theorem Y0Sz_eq (y : ℝ) : polySum y Y0S = ev Y0Sz y / 10 ^ 36 := by
  simp only [Y0S, Y0Sz, polySum_cons, polySum_nil, ev, one0]; push_cast; ring

def Y0PNz : List ℤ := [999999999999999900, 1039698629715637000, 257691017263339800, 15041524857496690, 105259841358527]
theorem Y0PNz_eq (y : ℝ) : polySum y Y0PN = ev Y0PNz y / 10 ^ 18 := by
  simp only [Y0PN, Y0PNz, polySum_cons, polySum_nil, ev, one0]; push_cast; ring

def Y0PDz : List ℤ := [10000000000000000000, 10407972625281090000, 2588070904043728000, 152995447772128400, 1168931211650012]
theorem Y0PDz_eq (y : ℝ) : polySum y Y0PD = ev Y0PDz y / 10 ^ 19 := by
  simp only [Y0PD, Y0PDz, polySum_cons, polySum_nil, ev, one0]; push_cast; ring

def Y0QNz : List ℤ := [-15624999999999920000, -19200393170656410000, -5827951791963418000, -437267497848272600, -3895839560412374]
theorem Y0QNz_eq (y : ℝ) : polySum y Y0QN = ev Y0QNz y / 10 ^ 21 := by
  simp only [Y0QN, Y0QNz, polySum_cons, polySum_nil, ev, one0]; push_cast; ring

def Y0QDz : List ℤ := [10000000000000000000, 12379804363583900000, 3838793938147116000, 310032348155086400, 4165515825072393]
theorem Y0QDz_eq (y : ℝ) : polySum y Y0QD = ev Y0QDz y / 10 ^ 19 := by
  simp only [Y0QD, Y0QDz, polySum_cons, polySum_nil, ev, one0]; push_cast; ring

def Y1Rz : List ℤ := [-104183542586323400000000000000, -11350939639089520000000000, 221211852063813200000000000, 1270981874287763000000000, -39828921008367480000000, -482071211011594300000, -1929392690596969000, -2725259514545605]
theorem Y1Rz_eq (y : ℝ) : polySum y Y1R = ev Y1Rz y / 10 ^ 30 := by
  simp only [Y1R, Y1Rz, polySum_cons, polySum_nil, ev, one0]; push_cast; ring

def Y1Sz : List ℤ := [100000000000000000000000000000000, 1186694184425838000000000000000, 7121205411175519000000000000, 28471424540850550000000000, 83642409627848990000000, 185812828383372400000, 301884606078184600, 301579873581598]
theorem Y1Sz_eq (y : ℝ) : polySum y Y1S = ev Y1Sz y / 10 ^ 32 := by
  simp only [Y1S, Y1Sz, polySum_cons, polySum_nil, ev, one0]; push_cast; ring

def Y1PNz : List ℤ := [100000000000000000000, 101403911104531300000, 24267623486298630000, 1350308200342000000, 9516522033988099]
theorem Y1PNz_eq (y : ℝ) : polySum y Y1PN = ev Y1PNz y / 10 ^ 20 := by
  simp only [Y1PN, Y1PNz, polySum_cons, polySum_nil, ev, one0]; push_cast; ring

def Y1PDz : List ℤ := [100000000000000000000, 101220805635784500000, 24085803054889380000, 1309511056184273000, 7746422941504713]
theorem Y1PDz_eq (y : ℝ) : polySum y Y1PD = ev Y1PDz y / 10 ^ 20 := by
  simp only [Y1PD, Y1PDz, polySum_cons, polySum_nil, ev, one0]; push_cast; ring

def Y1QNz : List ℤ := [4687499999999991000, 5652407388406023000, 1676531273460512000, 123121681771581400, 1178364381441801]
theorem Y1QNz_eq (y : ℝ) : polySum y Y1QN = ev Y1QNz y / 10 ^ 20 := by
  simp only [Y1QN, Y1QNz, polySum_cons, polySum_nil, ev, one0]; push_cast; ring

def Y1QDz : List ℤ := [10000000000000000000, 12101193704636930000, 3626494789275638000, 276169582482931600, 3240517192670181]
theorem Y1QDz_eq (y : ℝ) : polySum y Y1QD = ev Y1QDz y / 10 ^ 19 := by
  simp only [Y1QD, Y1QDz, polySum_cons, polySum_nil, ev, one0]; push_cast; ring

def I0Pz : List ℤ := [999999999999999700000000000000000000000000000, 246640557942690500000000000000000000000000000, 14789803634445850000000000000000000000000000, 382699355994036000000000000000000000000000, 5395676869878828000000000000000000000000, 47009122009217040000000000000000000000, 273389492091560800000000000000000000, 1115830108455192000000000000000000, 3301093025084127000000000000000, 7209167098020555000000000000, 11668984887772140000000000, 13789482465021090000000, 11248840618575060000, 5498556929587117]
theorem I0Pz_eq (y : ℝ) : polySum y I0P = ev I0Pz y / 10 ^ 45 := by
  simp only [I0P, I0Pz, polySum_cons, polySum_nil, ev, one0]; push_cast; ring

def I0Qz : List ℤ := [4463598170691436000000000000, 17022057450426060000000000, 27921256845389340000000, 23699020347858660000, 8965900179621208]
theorem I0Qz_eq (y : ℝ) : polySum y I0Q = ev I0Qz y / 10 ^ 28 := by
  simp only [I0Q, I0Qz, polySum_cons, polySum_nil, ev, one0]; push_cast; ring

def I0PPz : List ℤ := [1192273748120670000, 1947452015979746000, 762924182160058800, 84749035808015500, 2023821945835647]
theorem I0PPz_eq (y : ℝ) : polySum y I0PP = ev I0PPz y / 10 ^ 19 := by
  simp only [I0PP, I0PPz, polySum_cons, polySum_nil, ev, one0]; push_cast; ring

def I0QQz : List ℤ := [29628984245330950000, 48661159131963840000, 19383528064776170000, 2261671093400046000, 64504480950755850, 152983578240045]
theorem I0QQz_eq (y : ℝ) : polySum y I0QQ = ev I0QQz y / 10 ^ 20 := by
  simp only [I0QQ, I0QQz, polySum_cons, polySum_nil, ev, one0]; push_cast; ring

def I1Pz : List ℤ := [5000000000000000000000000000000000000000000000, 609082483657807800000000000000000000000000000, 24072885745453400000000000000000000000000000, 462231114554415800000000000000000000000000, 5161743818147913000000000000000000000000, 37123623748475550000000000000000000000, 183398343381151700000000000000000000, 649312513399070600000000000000000, 1693074927497696000000000000000, 3299609473102338000000000000, 4813071975603122000000000, 5164275442089090000000, 3846870021788629000, 1712948291408736]
theorem I1Pz_eq (y : ℝ) : polySum y I1P = ev I1Pz y / 10 ^ 46 := by
  simp only [I1P, I1Pz, polySum_cons, polySum_nil, ev, one0]; push_cast; ring

def I1Qz : List ℤ := [4665973211630446000000000000, 16777544776130060000000000, 25830496346897250000000, 20459309342535560000, 7166133240195285]
theorem I1Qz_eq (y : ℝ) : polySum y I1Q = ev I1Qz y / 10 ^ 28 := by
  simp only [I1Q, I1Qz, polySum_cons, polySum_nil, ev, one0]; push_cast; ring

def I1PPz : List ℤ := [1286515211317124000, 1930915272916783000, 696568929816134300, 73459787835045950, 1963602129240502]
theorem I1PPz_eq (y : ℝ) : polySum y I1PP = ev I1PPz y / 10 ^ 19 := by
  simp only [I1PP, I1PPz, polySum_cons, polySum_nil, ev, one0]; push_cast; ring

def I1QQz : List ℤ := [330938509886075500000, 487821842409762800000, 166308850156869600000, 14735418928095220000, 196413143857105100, -1034524660214173]
theorem I1QQz_eq (y : ℝ) : polySum y I1QQ = ev I1QQz y / 10 ^ 21 := by
  simp only [I1QQ, I1QQz, polySum_cons, polySum_nil, ev, one0]; push_cast; ring

def K0PIz : List ℤ := [1000000000000000000000, 234648794918739600000, 11870820886634040000, 215070736604093700, 1425433617130587]
theorem K0PIz_eq (y : ℝ) : polySum y K0PI = ev K0PIz y / 10 ^ 21 := by
  simp only [K0PI, K0PIz, polySum_cons, polySum_nil, ev, one0]; push_cast; ring

def K0QIz : List ℤ := [98473241707553580000, 1518396076767770000, 8362215678646257]
theorem K0QIz_eq (y : ℝ) : polySum y K0QI = ev K0QIz y / 10 ^ 20 := by
  simp only [K0QI, K0QIz, polySum_cons, polySum_nil, ev, one0]; push_cast; ring

def K0Pz : List ℤ := [115931515658412600000, 277073124051533300000, 20664581346198750000, 457473470997826400, 3454715527986737]
theorem K0Pz_eq (y : ℝ) : polySum y K0P = ev K0Pz y / 10 ^ 21 := by
  simp only [K0P, K0Pz, polySum_cons, polySum_nil, ev, one0]; push_cast; ring

def K0Qz : List ℤ := [98362496717091830000, 1627693622304549000, 9809660603621949]
theorem K0Qz_eq (y : ℝ) : polySum y K0Q = ev K0Qz y / 10 ^ 20 := by
  simp only [K0Q, K0Qz, polySum_cons, polySum_nil, ev, one0]; push_cast; ring

def K0PPz : List ℤ := [125331413731549900, 1475731032429900000, 6123767403223466000, 11210126339399490000, 9285288485892228000, 3198289277679660000, 359537602414851300, 6160228690102976]
theorem K0PPz_eq (y : ℝ) : polySum y K0PP = ev K0PPz y / 10 ^ 17 := by
  simp only [K0PP, K0PPz, polySum_cons, polySum_nil, ev, one0]; push_cast; ring

def K0QQz : List ℤ := [1000000000000000, 11899630066734030, 50277735908297840, 94965133734270930, 83180774932302580, 31813997774493010, 4443672926432041, 140829560196660]
theorem K0QQz_eq (y : ℝ) : polySum y K0QQ = ev K0QQz y / 10 ^ 15 := by
  simp only [K0QQ, K0QQz, polySum_cons, polySum_nil, ev, one0]; push_cast; ring

def K1PIz : List ℤ := [5000000000000000000000, 559807204017874100000, 18186663821682950000, 239750990885995900, 1239567816344855]
theorem K1PIz_eq (y : ℝ) : polySum y K1PI = ev K1PIz y / 10 ^ 22 := by
  simp only [K1PI, K1PIz, polySum_cons, polySum_nil, ev, one0]; push_cast; ring

def K1QIz : List ℤ := [98702026013411500000, 1292092053534579000, 5881933053917096]
theorem K1QIz_eq (y : ℝ) : polySum y K1QI = ev K1QIz y / 10 ^ 20 := by
  simp only [K1QI, K1QIz, polySum_cons, polySum_nil, ev, one0]; push_cast; ring

def K1Pz : List ℤ := [-3079657578292062000000, -810941763182244200000, -34775509485936040000, -538559487197540600, -3110372465429008]
theorem K1Pz_eq (y : ℝ) : polySum y K1P = ev K1Pz y / 10 ^ 22 := by
  simp only [K1P, K1Pz, polySum_cons, polySum_nil, ev, one0]; push_cast; ring

def K1Qz : List ℤ := [98618131717513890000, 1375094061153160000, 6774221332947002]
theorem K1Qz_eq (y : ℝ) : polySum y K1Q = ev K1Qz y / 10 ^ 20 := by
  simp only [K1Q, K1Qz, polySum_cons, polySum_nil, ev, one0]; push_cast; ring

def K1PPz : List ℤ := [12533141373155020, 145717134022045400, 606316117309880300, 1147386690867892000, 1040442011439181000, 435659665683769100, 72652303963536900, 3144418558991021]
theorem K1PPz_eq (y : ℝ) : polySum y K1PP = ev K1PPz y / 10 ^ 16 := by
  simp only [K1PP, K1PPz, polySum_cons, polySum_nil, ev, one0]; push_cast; ring

def K1QQz : List ℤ := [100000000000000000, 1125154514806458000, 4427488496597630000, 7616113213117645000, 5863377227890893000, 1850303673841586000, 185724467656602200, 2538540887654872]
theorem K1QQz_eq (y : ℝ) : polySum y K1QQ = ev K1QQz y / 10 ^ 17 := by
  simp only [K1QQ, K1QQz, polySum_cons, polySum_nil, ev, one0]; push_cast; ring

end Bes
end Verif
