import Verif.Tables.Bessel
import Verif.Proofs.FlErr

/-! Generated by tools/gen_bessel_x.py from Verif/Tables/Bessel.lean. Do not edit.
Each table as a list of expressions. -/

namespace Verif
namespace BesX
open FlErr

def J0Rx : List Ex := [.lit 1682397144220462 19, .lit 2058861258868952 20, .lit 528894732006775 21, .lit 5557173907680151 24, .lit 2865540042042604 26, .lit 7398972674152181 29, .lit 7925088479679688 32]
theorem J0Rx_F (ρ : ℕ → F64) : J0Rx.map (evF ρ) = J0R := by
  simp [J0R, J0Rx, evF]
theorem J0Rx_R (ρ : ℕ → ℝ) : J0Rx.map (evR ρ) = J0R := by
  simp only [J0R, J0Rx, evR, List.map]; norm_num

def J0Sx : List Ex := [.lit 10 1, .lit 1019685405805929 17, .lit 5130296867064666 20, .lit 1659702063950243 22, .lit 3728997574317067 25, .lit 5709292619977798 28, .lit 4932979170744996 31]
theorem J0Sx_F (ρ : ℕ → F64) : J0Sx.map (evF ρ) = J0S := by
  simp [J0S, J0Sx, evF]
theorem J0Sx_R (ρ : ℕ → ℝ) : J0Sx.map (evR ρ) = J0S := by
  simp only [J0S, J0Sx, evR, List.map]; norm_num

def J0PNx : List Ex := [.lit 9999999999999999 16, .lit 1039698629715637 15, .lit 2576910172633398 16, .lit 1504152485749669 17, .lit 105259841358527 18]
theorem J0PNx_F (ρ : ℕ → F64) : J0PNx.map (evF ρ) = J0PN := by
  simp [J0PN, J0PNx, evF]
theorem J0PNx_R (ρ : ℕ → ℝ) : J0PNx.map (evR ρ) = J0PN := by
  simp only [J0PN, J0PNx, evR, List.map]; norm_num

def J0PDx : List Ex := [.lit 10 1, .lit 1040797262528109 15, .lit 2588070904043728 16, .lit 1529954477721284 17, .lit 1168931211650012 19]
theorem J0PDx_F (ρ : ℕ → F64) : J0PDx.map (evF ρ) = J0PD := by
  simp [J0PD, J0PDx, evF]
theorem J0PDx_R (ρ : ℕ → ℝ) : J0PDx.map (evR ρ) = J0PD := by
  simp only [J0PD, J0PDx, evR, List.map]; norm_num

def J0QNx : List Ex := [.neg (.lit 1562499999999992 17), .neg (.lit 1920039317065641 17), .neg (.lit 5827951791963418 18), .neg (.lit 4372674978482726 19), .neg (.lit 3895839560412374 21)]
theorem J0QNx_F (ρ : ℕ → F64) : J0QNx.map (evF ρ) = J0QN := by
  simp [J0QN, J0QNx, evF]
theorem J0QNx_R (ρ : ℕ → ℝ) : J0QNx.map (evR ρ) = J0QN := by
  simp only [J0QN, J0QNx, evR, List.map]; norm_num

def J0QDx : List Ex := [.lit 10 1, .lit 123798043635839 14, .lit 3838793938147116 16, .lit 3100323481550864 17, .lit 4165515825072393 19]
theorem J0QDx_F (ρ : ℕ → F64) : J0QDx.map (evF ρ) = J0QD := by
  simp [J0QD, J0QDx, evF]
theorem J0QDx_R (ρ : ℕ → ℝ) : J0QDx.map (evR ρ) = J0QD := by
  simp only [J0QD, J0QDx, evR, List.map]; norm_num

def J1Rx : List Ex := [.lit 7309637831891357 20, .lit 3551248884746503 21, .lit 5820673901730427 23, .lit 4500650342170622 25, .lit 1831596352149641 27, .lit 3891583573305035 30, .lit 3524978592527982 33]
theorem J1Rx_F (ρ : ℕ → F64) : J1Rx.map (evF ρ) = J1R := by
  simp [J1R, J1Rx, evF]
theorem J1Rx_R (ρ : ℕ → ℝ) : J1Rx.map (evR ρ) = J1R := by
  simp only [J1R, J1Rx, evR, List.map]; norm_num

def J1Sx : List Ex := [.lit 10 1, .lit 9398354768446072 18, .lit 432894673710023 19, .lit 1271526296341915 22, .lit 2566305357932989 25, .lit 3477378203574266 28, .lit 2593535427519985 31]
theorem J1Sx_F (ρ : ℕ → F64) : J1Sx.map (evF ρ) = J1S := by
  simp [J1S, J1Sx, evF]
theorem J1Sx_R (ρ : ℕ → ℝ) : J1Sx.map (evR ρ) = J1S := by
  simp only [J1S, J1Sx, evR, List.map]; norm_num

def J1PNx : List Ex := [.lit 10 1, .lit 1014039111045313 15, .lit 2426762348629863 16, .lit 1350308200342 14, .lit 9516522033988099 20]
theorem J1PNx_F (ρ : ℕ → F64) : J1PNx.map (evF ρ) = J1PN := by
  simp [J1PN, J1PNx, evF]
theorem J1PNx_R (ρ : ℕ → ℝ) : J1PNx.map (evR ρ) = J1PN := by
  simp only [J1PN, J1PNx, evR, List.map]; norm_num

def J1PDx : List Ex := [.lit 10 1, .lit 1012208056357845 15, .lit 2408580305488938 16, .lit 1309511056184273 17, .lit 7746422941504713 20]
theorem J1PDx_F (ρ : ℕ → F64) : J1PDx.map (evF ρ) = J1PD := by
  simp [J1PD, J1PDx, evF]
theorem J1PDx_R (ρ : ℕ → ℝ) : J1PDx.map (evR ρ) = J1PD := by
  simp only [J1PD, J1PDx, evR, List.map]; norm_num

def J1QNx : List Ex := [.lit 4687499999999991 17, .lit 5652407388406023 17, .lit 1676531273460512 17, .lit 1231216817715814 18, .lit 1178364381441801 20]
theorem J1QNx_F (ρ : ℕ → F64) : J1QNx.map (evF ρ) = J1QN := by
  simp [J1QN, J1QNx, evF]
theorem J1QNx_R (ρ : ℕ → ℝ) : J1QNx.map (evR ρ) = J1QN := by
  simp only [J1QN, J1QNx, evR, List.map]; norm_num

def J1QDx : List Ex := [.lit 10 1, .lit 1210119370463693 15, .lit 3626494789275638 16, .lit 2761695824829316 17, .lit 3240517192670181 19]
theorem J1QDx_F (ρ : ℕ → F64) : J1QDx.map (evF ρ) = J1QD := by
  simp [J1QD, J1QDx, evF]
theorem J1QDx_R (ρ : ℕ → ℝ) : J1QDx.map (evR ρ) = J1QD := by
  simp only [J1QD, J1QDx, evR, List.map]; norm_num

def Y0Rx : List Ex := [.neg (.lit 7653778457189104 18), .neg (.lit 5854760129990403 17), .lit 3720671300654721 19, .lit 3313722284628089 20, .lit 4247761237036536 23, .neg (.lit 4134562661019613 24), .neg (.lit 3382190331837473 26), .neg (.lit 1017764126587862 28), .neg (.lit 1107646382675456 31)]
theorem Y0Rx_F (ρ : ℕ → F64) : Y0Rx.map (evF ρ) = Y0R := by
  simp [Y0R, Y0Rx, evF]
theorem Y0Rx_R (ρ : ℕ → ℝ) : Y0Rx.map (evR ρ) = Y0R := by
  simp only [Y0R, Y0Rx, evR, List.map]; norm_num

def Y0Sx : List Ex := [.lit 10 1, .lit 1125494540257841 17, .lit 64272105370814 18, .lit 2462520624294959 22, .lit 7029372432344291 25, .lit 1560784108184928 27, .lit 2702374957564761 30, .lit 3468496737915257 33, .lit 2716600180811817 36]
theorem Y0Sx_F (ρ : ℕ → F64) : Y0Sx.map (evF ρ) = Y0S := by
  simp [Y0S, Y0Sx, evF]
theorem Y0Sx_R (ρ : ℕ → ℝ) : Y0Sx.map (evR ρ) = Y0S := by
  simp only [Y0S, Y0Sx, evR, List.map]; norm_num

def Y0PNx : List Ex := [.lit 9999999999999999 16, .lit 1039698629715637 15, .lit 2576910172633398 16, .lit 1504152485749669 17, .lit 105259841358527 18]
theorem Y0PNx_F (ρ : ℕ → F64) : Y0PNx.map (evF ρ) = Y0PN := by
  simp [Y0PN, Y0PNx, evF]
theorem Y0PNx_R (ρ : ℕ → ℝ) : Y0PNx.map (evR ρ) = Y0PN := by
  simp only [Y0PN, Y0PNx, evR, List.map]; norm_num

def Y0PDx : List Ex := [.lit 10 1, .lit 1040797262528109 15, .lit 2588070904043728 16, .lit 1529954477721284 17, .lit 1168931211650012 19]
theorem Y0PDx_F (ρ : ℕ → F64) : Y0PDx.map (evF ρ) = Y0PD := by
  simp [Y0PD, Y0PDx, evF]
theorem Y0PDx_R (ρ : ℕ → ℝ) : Y0PDx.map (evR ρ) = Y0PD := by
  simp only [Y0PD, Y0PDx, evR, List.map]; norm_num

def Y0QNx : List Ex := [.neg (.lit 1562499999999992 17), .neg (.lit 1920039317065641 17), .neg (.lit 5827951791963418 18), .neg (.lit 4372674978482726 19), .neg (.lit 3895839560412374 21)]
theorem Y0QNx_F (ρ : ℕ → F64) : Y0QNx.map (evF ρ) = Y0QN := by
  simp [Y0QN, Y0QNx, evF]
theorem Y0QNx_R (ρ : ℕ → ℝ) : Y0QNx.map (evR ρ) = Y0QN := by
  simp only [Y0QN, Y0QNx, evR, List.map]; norm_num

def Y0QDx : List Ex := [.lit 10 1, .lit 123798043635839 14, .lit 3838793938147116 16, .lit 3100323481550864 17, .lit 4165515825072393 19]
theorem Y0QDx_F (ρ : ℕ → F64) : Y0QDx.map (evF ρ) = Y0QD := by
  simp [Y0QD, Y0QDx, evF]
theorem Y0QDx_R (ρ : ℕ → ℝ) : Y0QDx.map (evR ρ) = Y0QD := by
  simp only [Y0QD, Y0QDx, evR, List.map]; norm_num

def Y1Rx : List Ex := [.neg (.lit 1041835425863234 16), .neg (.lit 1135093963908952 20), .lit 2212118520638132 19, .lit 1270981874287763 21, .neg (.lit 3982892100836748 23), .neg (.lit 4820712110115943 25), .neg (.lit 1929392690596969 27), .neg (.lit 2725259514545605 30)]
theorem Y1Rx_F (ρ : ℕ → F64) : Y1Rx.map (evF ρ) = Y1R := by
  simp [Y1R, Y1Rx, evF]
theorem Y1Rx_R (ρ : ℕ → ℝ) : Y1Rx.map (evR ρ) = Y1R := by
  simp only [Y1R, Y1Rx, evR, List.map]; norm_num

def Y1Sx : List Ex := [.lit 10 1, .lit 1186694184425838 17, .lit 7121205411175519 20, .lit 2847142454085055 22, .lit 8364240962784899 25, .lit 1858128283833724 27, .lit 3018846060781846 30, .lit 301579873581598 32]
theorem Y1Sx_F (ρ : ℕ → F64) : Y1Sx.map (evF ρ) = Y1S := by
  simp [Y1S, Y1Sx, evF]
theorem Y1Sx_R (ρ : ℕ → ℝ) : Y1Sx.map (evR ρ) = Y1S := by
  simp only [Y1S, Y1Sx, evR, List.map]; norm_num

def Y1PNx : List Ex := [.lit 10 1, .lit 1014039111045313 15, .lit 2426762348629863 16, .lit 1350308200342 14, .lit 9516522033988099 20]
theorem Y1PNx_F (ρ : ℕ → F64) : Y1PNx.map (evF ρ) = Y1PN := by
  simp [Y1PN, Y1PNx, evF]
theorem Y1PNx_R (ρ : ℕ → ℝ) : Y1PNx.map (evR ρ) = Y1PN := by
  simp only [Y1PN, Y1PNx, evR, List.map]; norm_num

def Y1PDx : List Ex := [.lit 10 1, .lit 1012208056357845 15, .lit 2408580305488938 16, .lit 1309511056184273 17, .lit 7746422941504713 20]
theorem Y1PDx_F (ρ : ℕ → F64) : Y1PDx.map (evF ρ) = Y1PD := by
  simp [Y1PD, Y1PDx, evF]
theorem Y1PDx_R (ρ : ℕ → ℝ) : Y1PDx.map (evR ρ) = Y1PD := by
  simp only [Y1PD, Y1PDx, evR, List.map]; norm_num

def Y1QNx : List Ex := [.lit 4687499999999991 17, .lit 5652407388406023 17, .lit 1676531273460512 17, .lit 1231216817715814 18, .lit 1178364381441801 20]
theorem Y1QNx_F (ρ : ℕ → F64) : Y1QNx.map (evF ρ) = Y1QN := by
  simp [Y1QN, Y1QNx, evF]
theorem Y1QNx_R (ρ : ℕ → ℝ) : Y1QNx.map (evR ρ) = Y1QN := by
  simp only [Y1QN, Y1QNx, evR, List.map]; norm_num

def Y1QDx : List Ex := [.lit 10 1, .lit 1210119370463693 15, .lit 3626494789275638 16, .lit 2761695824829316 17, .lit 3240517192670181 19]
theorem Y1QDx_F (ρ : ℕ → F64) : Y1QDx.map (evF ρ) = Y1QD := by
  simp [Y1QD, Y1QDx, evF]
theorem Y1QDx_R (ρ : ℕ → ℝ) : Y1QDx.map (evR ρ) = Y1QD := by
  simp only [Y1QD, Y1QDx, evR, List.map]; norm_num

def I0Px : List Ex := [.lit 9999999999999997 16, .lit 2466405579426905 16, .lit 1478980363444585 17, .lit 382699355994036 18, .lit 5395676869878828 21, .lit 4700912200921704 23, .lit 2733894920915608 25, .lit 1115830108455192 27, .lit 3301093025084127 30, .lit 7209167098020555 33, .lit 1166898488777214 35, .lit 1378948246502109 38, .lit 1124884061857506 41, .lit 5498556929587117 45]
theorem I0Px_F (ρ : ℕ → F64) : I0Px.map (evF ρ) = I0P := by
  simp [I0P, I0Px, evF]
theorem I0Px_R (ρ : ℕ → ℝ) : I0Px.map (evR ρ) = I0P := by
  simp only [I0P, I0Px, evR, List.map]; norm_num

def I0Qx : List Ex := [.lit 4463598170691436 16, .lit 1702205745042606 18, .lit 2792125684538934 21, .lit 2369902034785866 24, .lit 8965900179621208 28]
theorem I0Qx_F (ρ : ℕ → F64) : I0Qx.map (evF ρ) = I0Q := by
  simp [I0Q, I0Qx, evF]
theorem I0Qx_R (ρ : ℕ → ℝ) : I0Qx.map (evR ρ) = I0Q := by
  simp only [I0Q, I0Qx, evR, List.map]; norm_num

def I0PPx : List Ex := [.lit 119227374812067 15, .lit 1947452015979746 16, .lit 7629241821600588 17, .lit 847490358080155 17, .lit 2023821945835647 19]
theorem I0PPx_F (ρ : ℕ → F64) : I0PPx.map (evF ρ) = I0PP := by
  simp [I0PP, I0PPx, evF]
theorem I0PPx_R (ρ : ℕ → ℝ) : I0PPx.map (evR ρ) = I0PP := by
  simp only [I0PP, I0PPx, evR, List.map]; norm_num

def I0QQx : List Ex := [.lit 2962898424533095 16, .lit 4866115913196384 16, .lit 1938352806477617 16, .lit 2261671093400046 17, .lit 6450448095075585 19, .lit 152983578240045 20]
theorem I0QQx_F (ρ : ℕ → F64) : I0QQx.map (evF ρ) = I0QQ := by
  simp [I0QQ, I0QQx, evF]
theorem I0QQx_R (ρ : ℕ → ℝ) : I0QQx.map (evR ρ) = I0QQ := by
  simp only [I0QQ, I0QQx, evR, List.map]; norm_num

def I1Px : List Ex := [.lit 5 1, .lit 6090824836578078 17, .lit 240728857454534 17, .lit 4622311145544158 20, .lit 5161743818147913 22, .lit 3712362374847555 24, .lit 1833983433811517 26, .lit 6493125133990706 29, .lit 1693074927497696 31, .lit 3299609473102338 34, .lit 4813071975603122 37, .lit 516427544208909 39, .lit 3846870021788629 43, .lit 1712948291408736 46]
theorem I1Px_F (ρ : ℕ → F64) : I1Px.map (evF ρ) = I1P := by
  simp [I1P, I1Px, evF]
theorem I1Px_R (ρ : ℕ → ℝ) : I1Px.map (evR ρ) = I1P := by
  simp only [I1P, I1Px, evR, List.map]; norm_num

def I1Qx : List Ex := [.lit 4665973211630446 16, .lit 1677754477613006 18, .lit 2583049634689725 21, .lit 2045930934253556 24, .lit 7166133240195285 28]
theorem I1Qx_F (ρ : ℕ → F64) : I1Qx.map (evF ρ) = I1Q := by
  simp [I1Q, I1Qx, evF]
theorem I1Qx_R (ρ : ℕ → ℝ) : I1Qx.map (evR ρ) = I1Q := by
  simp only [I1Q, I1Qx, evR, List.map]; norm_num

def I1PPx : List Ex := [.lit 1286515211317124 16, .lit 1930915272916783 16, .lit 6965689298161343 17, .lit 7345978783504595 18, .lit 1963602129240502 19]
theorem I1PPx_F (ρ : ℕ → F64) : I1PPx.map (evF ρ) = I1PP := by
  simp [I1PP, I1PPx, evF]
theorem I1PPx_R (ρ : ℕ → ℝ) : I1PPx.map (evR ρ) = I1PP := by
  simp only [I1PP, I1PPx, evR, List.map]; norm_num

def I1QQx : List Ex := [.lit 3309385098860755 16, .lit 4878218424097628 16, .lit 1663088501568696 16, .lit 1473541892809522 17, .lit 1964131438571051 19, .neg (.lit 1034524660214173 21)]
theorem I1QQx_F (ρ : ℕ → F64) : I1QQx.map (evF ρ) = I1QQ := by
  simp [I1QQ, I1QQx, evF]
theorem I1QQx_R (ρ : ℕ → ℝ) : I1QQx.map (evR ρ) = I1QQ := by
  simp only [I1QQ, I1QQx, evR, List.map]; norm_num

def K0PIx : List Ex := [.lit 10 1, .lit 2346487949187396 16, .lit 1187082088663404 17, .lit 2150707366040937 19, .lit 1425433617130587 21]
theorem K0PIx_F (ρ : ℕ → F64) : K0PIx.map (evF ρ) = K0PI := by
  simp [K0PI, K0PIx, evF]
theorem K0PIx_R (ρ : ℕ → ℝ) : K0PIx.map (evR ρ) = K0PI := by
  simp only [K0PI, K0PIx, evR, List.map]; norm_num

def K0QIx : List Ex := [.lit 9847324170755358 16, .lit 151839607676777 16, .lit 8362215678646257 20]
theorem K0QIx_F (ρ : ℕ → F64) : K0QIx.map (evF ρ) = K0QI := by
  simp [K0QI, K0QIx, evF]
theorem K0QIx_R (ρ : ℕ → ℝ) : K0QIx.map (evR ρ) = K0QI := by
  simp only [K0QI, K0QIx, evR, List.map]; norm_num

def K0Px : List Ex := [.lit 1159315156584126 16, .lit 2770731240515333 16, .lit 2066458134619875 17, .lit 4574734709978264 19, .lit 3454715527986737 21]
theorem K0Px_F (ρ : ℕ → F64) : K0Px.map (evF ρ) = K0P := by
  simp [K0P, K0Px, evF]
theorem K0Px_R (ρ : ℕ → ℝ) : K0Px.map (evR ρ) = K0P := by
  simp only [K0P, K0Px, evR, List.map]; norm_num

def K0Qx : List Ex := [.lit 9836249671709183 16, .lit 1627693622304549 17, .lit 9809660603621949 20]
theorem K0Qx_F (ρ : ℕ → F64) : K0Qx.map (evF ρ) = K0Q := by
  simp [K0Q, K0Qx, evF]
theorem K0Qx_R (ρ : ℕ → ℝ) : K0Qx.map (evR ρ) = K0Q := by
  simp only [K0Q, K0Qx, evR, List.map]; norm_num

def K0PPx : List Ex := [.lit 1253314137315499 15, .lit 14757310324299 12, .lit 6123767403223466 14, .lit 1121012633939949 13, .lit 9285288485892228 14, .lit 319828927767966 13, .lit 3595376024148513 15, .lit 6160228690102976 17]
theorem K0PPx_F (ρ : ℕ → F64) : K0PPx.map (evF ρ) = K0PP := by
  simp [K0PP, K0PPx, evF]
theorem K0PPx_R (ρ : ℕ → ℝ) : K0PPx.map (evR ρ) = K0PP := by
  simp only [K0PP, K0PPx, evR, List.map]; norm_num

def K0QQx : List Ex := [.lit 10 1, .lit 1189963006673403 14, .lit 5027773590829784 14, .lit 9496513373427093 14, .lit 8318077493230258 14, .lit 3181399777449301 14, .lit 4443672926432041 15, .lit 14082956019666 14]
theorem K0QQx_F (ρ : ℕ → F64) : K0QQx.map (evF ρ) = K0QQ := by
  simp [K0QQ, K0QQx, evF]
theorem K0QQx_R (ρ : ℕ → ℝ) : K0QQx.map (evR ρ) = K0QQ := by
  simp only [K0QQ, K0QQx, evR, List.map]; norm_num

def K1PIx : List Ex := [.lit 5 1, .lit 5598072040178741 17, .lit 1818666382168295 18, .lit 2397509908859959 20, .lit 1239567816344855 22]
theorem K1PIx_F (ρ : ℕ → F64) : K1PIx.map (evF ρ) = K1PI := by
  simp [K1PI, K1PIx, evF]
theorem K1PIx_R (ρ : ℕ → ℝ) : K1PIx.map (evR ρ) = K1PI := by
  simp only [K1PI, K1PIx, evR, List.map]; norm_num

def K1QIx : List Ex := [.lit 987020260134115 15, .lit 1292092053534579 17, .lit 5881933053917096 20]
theorem K1QIx_F (ρ : ℕ → F64) : K1QIx.map (evF ρ) = K1QI := by
  simp [K1QI, K1QIx, evF]
theorem K1QIx_R (ρ : ℕ → ℝ) : K1QIx.map (evR ρ) = K1QI := by
  simp only [K1QI, K1QIx, evR, List.map]; norm_num

def K1Px : List Ex := [.neg (.lit 3079657578292062 16), .neg (.lit 8109417631822442 17), .neg (.lit 3477550948593604 18), .neg (.lit 5385594871975406 20), .neg (.lit 3110372465429008 22)]
theorem K1Px_F (ρ : ℕ → F64) : K1Px.map (evF ρ) = K1P := by
  simp [K1P, K1Px, evF]
theorem K1Px_R (ρ : ℕ → ℝ) : K1Px.map (evR ρ) = K1P := by
  simp only [K1P, K1Px, evR, List.map]; norm_num

def K1Qx : List Ex := [.lit 9861813171751389 16, .lit 137509406115316 16, .lit 6774221332947002 20]
theorem K1Qx_F (ρ : ℕ → F64) : K1Qx.map (evF ρ) = K1Q := by
  simp [K1Q, K1Qx, evF]
theorem K1Qx_R (ρ : ℕ → ℝ) : K1Qx.map (evR ρ) = K1Q := by
  simp only [K1Q, K1Qx, evR, List.map]; norm_num

def K1PPx : List Ex := [.lit 1253314137315502 15, .lit 1457171340220454 14, .lit 6063161173098803 14, .lit 1147386690867892 13, .lit 1040442011439181 13, .lit 4356596656837691 14, .lit 726523039635369 14, .lit 3144418558991021 16]
theorem K1PPx_F (ρ : ℕ → F64) : K1PPx.map (evF ρ) = K1PP := by
  simp [K1PP, K1PPx, evF]
theorem K1PPx_R (ρ : ℕ → ℝ) : K1PPx.map (evR ρ) = K1PP := by
  simp only [K1PP, K1PPx, evR, List.map]; norm_num

def K1QQx : List Ex := [.lit 10 1, .lit 1125154514806458 14, .lit 442748849659763 13, .lit 7616113213117645 14, .lit 5863377227890893 14, .lit 1850303673841586 14, .lit 1857244676566022 15, .lit 2538540887654872 17]
theorem K1QQx_F (ρ : ℕ → F64) : K1QQx.map (evF ρ) = K1QQ := by
  simp [K1QQ, K1QQx, evF]
theorem K1QQx_R (ρ : ℕ → ℝ) : K1QQx.map (evR ρ) = K1QQ := by
  simp only [K1QQ, K1QQx, evR, List.map]; norm_num

end BesX
end Verif
