import Verif.Arith

/-! Generated by tools/gen_tables.py from /repo/src/bessel.rs:1054-1436. Do not edit. -/

namespace Verif
variable {α : Type} [Add α] [Sub α] [Mul α] [Div α] [Neg α] [OfScientific α]

/-- src/bessel.rs:1054-1062 -/
def C1 : List α :=
  [-1.142022680371168e0,
   6.5165112670737e-3,
   3.087090173086e-4,
   -3.4706269649e-6,
   6.9437664e-9,
   3.67795e-11,
   -1.356e-13]

/-- src/bessel.rs:1064-1073 -/
def C2 : List α :=
  [1.843740587300905e0,
   -7.68528408447867e-2,
   1.2719271366546e-3,
   -4.9717367042e-6,
   -3.31261198e-8,
   2.423096e-10,
   -1.702e-13,
   -1.49e-15]

/-- src/bessel.rs:1082-1090 -/
def J0R : List α :=
  [1.682397144220462e-4,
   2.058861258868952e-5,
   5.28894732006775e-7,
   5.557173907680151e-9,
   2.865540042042604e-11,
   7.398972674152181e-14,
   7.925088479679688e-17]

/-- src/bessel.rs:1091-1099 -/
def J0S : List α :=
  [1.0,
   1.019685405805929e-2,
   5.130296867064666e-5,
   1.659702063950243e-7,
   3.728997574317067e-10,
   5.709292619977798e-13,
   4.932979170744996e-16]

/-- src/bessel.rs:1100-1106 -/
def J0PN : List α :=
  [9.999999999999999e-1,
   1.039698629715637,
   2.576910172633398e-1,
   1.504152485749669e-2,
   1.05259841358527e-4]

/-- src/bessel.rs:1107-1113 -/
def J0PD : List α :=
  [1.0,
   1.040797262528109,
   2.588070904043728e-1,
   1.529954477721284e-2,
   1.168931211650012e-4]

/-- src/bessel.rs:1114-1120 -/
def J0QN : List α :=
  [-1.562499999999992e-2,
   -1.920039317065641e-2,
   -5.827951791963418e-3,
   -4.372674978482726e-4,
   -3.895839560412374e-6]

/-- src/bessel.rs:1121-1127 -/
def J0QD : List α :=
  [1.0,
   1.23798043635839,
   3.838793938147116e-1,
   3.100323481550864e-2,
   4.165515825072393e-4]

/-- src/bessel.rs:1128-1136 -/
def J1R : List α :=
  [7.309637831891357e-5,
   3.551248884746503e-6,
   5.820673901730427e-8,
   4.500650342170622e-10,
   1.831596352149641e-12,
   3.891583573305035e-15,
   3.524978592527982e-18]

/-- src/bessel.rs:1137-1145 -/
def J1S : List α :=
  [1.0,
   9.398354768446072e-3,
   4.32894673710023e-5,
   1.271526296341915e-7,
   2.566305357932989e-10,
   3.477378203574266e-13,
   2.593535427519985e-16]

/-- src/bessel.rs:1146-1152 -/
def J1PN : List α :=
  [1.0,
   1.014039111045313,
   2.426762348629863e-1,
   1.350308200342e-2,
   9.516522033988099e-5]

/-- src/bessel.rs:1153-1159 -/
def J1PD : List α :=
  [1.0,
   1.012208056357845,
   2.408580305488938e-1,
   1.309511056184273e-2,
   7.746422941504713e-5]

/-- src/bessel.rs:1160-1166 -/
def J1QN : List α :=
  [4.687499999999991e-2,
   5.652407388406023e-2,
   1.676531273460512e-2,
   1.231216817715814e-3,
   1.178364381441801e-5]

/-- src/bessel.rs:1167-1173 -/
def J1QD : List α :=
  [1.0,
   1.210119370463693,
   3.626494789275638e-1,
   2.761695824829316e-2,
   3.240517192670181e-4]

/-- src/bessel.rs:1174-1184 -/
def Y0R : List α :=
  [-7.653778457189104e-3,
   -5.854760129990403e-2,
   3.720671300654721e-4,
   3.313722284628089e-5,
   4.247761237036536e-8,
   -4.134562661019613e-9,
   -3.382190331837473e-11,
   -1.017764126587862e-13,
   -1.107646382675456e-16]

/-- src/bessel.rs:1185-1195 -/
def Y0S : List α :=
  [1.0,
   1.125494540257841e-2,
   6.4272105370814e-5,
   2.462520624294959e-7,
   7.029372432344291e-10,
   1.560784108184928e-12,
   2.702374957564761e-15,
   3.468496737915257e-18,
   2.716600180811817e-21]

/-- src/bessel.rs:1196-1202 -/
def Y0PN : List α :=
  [9.999999999999999e-1,
   1.039698629715637,
   2.576910172633398e-1,
   1.504152485749669e-2,
   1.05259841358527e-4]

/-- src/bessel.rs:1203-1209 -/
def Y0PD : List α :=
  [1.0,
   1.040797262528109,
   2.588070904043728e-1,
   1.529954477721284e-2,
   1.168931211650012e-4]

/-- src/bessel.rs:1210-1216 -/
def Y0QN : List α :=
  [-1.562499999999992e-2,
   -1.920039317065641e-2,
   -5.827951791963418e-3,
   -4.372674978482726e-4,
   -3.895839560412374e-6]

/-- src/bessel.rs:1217-1223 -/
def Y0QD : List α :=
  [1.0,
   1.23798043635839,
   3.838793938147116e-1,
   3.100323481550864e-2,
   4.165515825072393e-4]

/-- src/bessel.rs:1224-1233 -/
def Y1R : List α :=
  [-1.041835425863234e-1,
   -1.135093963908952e-5,
   2.212118520638132e-4,
   1.270981874287763e-6,
   -3.982892100836748e-8,
   -4.820712110115943e-10,
   -1.929392690596969e-12,
   -2.725259514545605e-15]

/-- src/bessel.rs:1234-1243 -/
def Y1S : List α :=
  [1.0,
   1.186694184425838e-2,
   7.121205411175519e-5,
   2.847142454085055e-7,
   8.364240962784899e-10,
   1.858128283833724e-12,
   3.018846060781846e-15,
   3.01579873581598e-18]

/-- src/bessel.rs:1244-1250 -/
def Y1PN : List α :=
  [1.0,
   1.014039111045313,
   2.426762348629863e-1,
   1.350308200342e-2,
   9.516522033988099e-5]

/-- src/bessel.rs:1251-1257 -/
def Y1PD : List α :=
  [1.0,
   1.012208056357845,
   2.408580305488938e-1,
   1.309511056184273e-2,
   7.746422941504713e-5]

/-- src/bessel.rs:1258-1264 -/
def Y1QN : List α :=
  [4.687499999999991e-2,
   5.652407388406023e-2,
   1.676531273460512e-2,
   1.231216817715814e-3,
   1.178364381441801e-5]

/-- src/bessel.rs:1265-1271 -/
def Y1QD : List α :=
  [1.0,
   1.210119370463693,
   3.626494789275638e-1,
   2.761695824829316e-2,
   3.240517192670181e-4]

/-- src/bessel.rs:1273-1288 -/
def I0P : List α :=
  [9.999999999999997e-1,
   2.466405579426905e-1,
   1.478980363444585e-2,
   3.82699355994036e-4,
   5.395676869878828e-6,
   4.700912200921704e-8,
   2.733894920915608e-10,
   1.115830108455192e-12,
   3.301093025084127e-15,
   7.209167098020555e-18,
   1.166898488777214e-20,
   1.378948246502109e-23,
   1.124884061857506e-26,
   5.498556929587117e-30]

/-- src/bessel.rs:1289-1295 -/
def I0Q : List α :=
  [4.463598170691436e-1,
   1.702205745042606e-3,
   2.792125684538934e-6,
   2.369902034785866e-9,
   8.965900179621208e-13]

/-- src/bessel.rs:1296-1302 -/
def I0PP : List α :=
  [1.19227374812067e-1,
   1.947452015979746e-1,
   7.629241821600588e-2,
   8.47490358080155e-3,
   2.023821945835647e-4]

/-- src/bessel.rs:1303-1310 -/
def I0QQ : List α :=
  [2.962898424533095e-1,
   4.866115913196384e-1,
   1.938352806477617e-1,
   2.261671093400046e-2,
   6.450448095075585e-4,
   1.52983578240045e-6]

/-- src/bessel.rs:1311-1326 -/
def I1P : List α :=
  [5e-1,
   6.090824836578078e-2,
   2.40728857454534e-3,
   4.622311145544158e-5,
   5.161743818147913e-7,
   3.712362374847555e-9,
   1.833983433811517e-11,
   6.493125133990706e-14,
   1.693074927497696e-16,
   3.299609473102338e-19,
   4.813071975603122e-22,
   5.16427544208909e-25,
   3.846870021788629e-28,
   1.712948291408736e-31]

/-- src/bessel.rs:1327-1333 -/
def I1Q : List α :=
  [4.665973211630446e-1,
   1.677754477613006e-3,
   2.583049634689725e-6,
   2.045930934253556e-9,
   7.166133240195285e-13]

/-- src/bessel.rs:1334-1340 -/
def I1PP : List α :=
  [1.286515211317124e-1,
   1.930915272916783e-1,
   6.965689298161343e-2,
   7.345978783504595e-3,
   1.963602129240502e-4]

/-- src/bessel.rs:1341-1348 -/
def I1QQ : List α :=
  [3.309385098860755e-1,
   4.878218424097628e-1,
   1.663088501568696e-1,
   1.473541892809522e-2,
   1.964131438571051e-4,
   -1.034524660214173e-6]

/-- src/bessel.rs:1349-1355 -/
def K0PI : List α :=
  [1.0,
   2.346487949187396e-1,
   1.187082088663404e-2,
   2.150707366040937e-4,
   1.425433617130587e-6]

/-- src/bessel.rs:1356-1360 -/
def K0QI : List α :=
  [9.847324170755358e-1,
   1.51839607676777e-2,
   8.362215678646257e-5]

/-- src/bessel.rs:1361-1367 -/
def K0P : List α :=
  [1.159315156584126e-1,
   2.770731240515333e-1,
   2.066458134619875e-2,
   4.574734709978264e-4,
   3.454715527986737e-6]

/-- src/bessel.rs:1368-1372 -/
def K0Q : List α :=
  [9.836249671709183e-1,
   1.627693622304549e-2,
   9.809660603621949e-5]

/-- src/bessel.rs:1373-1382 -/
def K0PP : List α :=
  [1.253314137315499,
   1.4757310324299e1,
   6.123767403223466e1,
   1.121012633939949e2,
   9.285288485892228e1,
   3.19828927767966e1,
   3.595376024148513,
   6.160228690102976e-2]

/-- src/bessel.rs:1383-1392 -/
def K0QQ : List α :=
  [1.0,
   1.189963006673403e1,
   5.027773590829784e1,
   9.496513373427093e1,
   8.318077493230258e1,
   3.181399777449301e1,
   4.443672926432041,
   1.4082956019666e-1]

/-- src/bessel.rs:1393-1399 -/
def K1PI : List α :=
  [0.5,
   5.598072040178741e-2,
   1.818666382168295e-3,
   2.397509908859959e-5,
   1.239567816344855e-7]

/-- src/bessel.rs:1400-1404 -/
def K1QI : List α :=
  [9.87020260134115e-1,
   1.292092053534579e-2,
   5.881933053917096e-5]

/-- src/bessel.rs:1405-1411 -/
def K1P : List α :=
  [-3.079657578292062e-1,
   -8.109417631822442e-2,
   -3.477550948593604e-3,
   -5.385594871975406e-5,
   -3.110372465429008e-7]

/-- src/bessel.rs:1412-1416 -/
def K1Q : List α :=
  [9.861813171751389e-1,
   1.37509406115316e-2,
   6.774221332947002e-5]

/-- src/bessel.rs:1417-1426 -/
def K1PP : List α :=
  [1.253314137315502,
   1.457171340220454e1,
   6.063161173098803e1,
   1.147386690867892e2,
   1.040442011439181e2,
   4.356596656837691e1,
   7.26523039635369,
   3.144418558991021e-1]

/-- src/bessel.rs:1427-1436 -/
def K1QQ : List α :=
  [1.0,
   1.125154514806458e1,
   4.42748849659763e1,
   7.616113213117645e1,
   5.863377227890893e1,
   1.850303673841586e1,
   1.857244676566022,
   2.538540887654872e-2]

end Verif
