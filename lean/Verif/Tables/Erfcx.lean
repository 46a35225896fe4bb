import Verif.Tables.Lit

/-! Generated by tools/gen_tables.py from /repo/src/error.rs. Do not edit. -/

namespace Verif

/-- src/error.rs:362-1259, rows 0-63: `dp m e`, `dn m e` stand for the literals `±m·10^-e` -/
def cheb0Rows_0 : List (List (Int × Nat)) :=
  [[dp 8723338250030206 16, dn 8872968103933578 19],
   [dp 8705621184027384 16, dn 8844118042796015 19],
   [dp 8687961697483176 16, dn 8815388545539402 19],
   [dp 8670359549867388 16, dn 8786779015153745 19],
   [dp 8652814501840489 16, dn 8758288857988123 19],
   [dp 8635326315246904 16, dn 8729917483729752 19],
   [dp 8617894753108368 16, dn 8701664305383194 19],
   [dp 8600519579617303 16, dn 8673528739249706 19],
   [dp 8583200560130249 16, dn 8645510204906727 19],
   [dp 8565937461161331 16, dn 8617608125187508 19],
   [dp 8548730050375775 16, dn 8589821926160877 19],
   [dp 8531578096583441 16, dn 8562151037111138 19],
   [dp 851448136973243 15, dn 8534594890518116 19],
   [dp 8497439640902698 16, dn 8507152922037327 19],
   [dp 8480452682299734 16, dn 8479824570480282 19],
   [dp 8463520267248265 16, dn 8452609277794933 19],
   [dp 8446642170185998 16, dn 8425506489046247 19],
   [dp 8429818166657415 16, dn 8398515652396899 19],
   [dp 8413048033307585 16, dn 837163621908812 18],
   [dp 8396331547876036 16, dn 8344867643420651 19],
   [dp 8379668489190648 16, dn 8318209382735833 19],
   [dp 8363058637161596 16, dn 8291660897396833 19],
   [dp 8346501772775319 16, dn 8265221650769985 19],
   [dp 8329997678088539 16, dn 8238891109206256 19],
   [dp 8313546136222306 16, dn 821266874202285 18],
   [dp 8297146931356083 16, dn 8186554021484919 19],
   [dp 828079984872187 15, dn 816054642278741 18],
   [dp 8264504674598366 16, dn 8134645424037024 19],
   [dp 8248261196305154 16, dn 8108850506234304 19],
   [dp 8232069202196942 16, dn 8083161153255836 19],
   [dp 8215928481657822 16, dn 8057576851836578 19],
   [dp 8199838825095569 16, dn 8032097091552296 19],
   [dp 8183800023935985 16, dn 800672136480213 18],
   [dp 8167811870617263 16, dn 7981449166791264 19],
   [dp 8151874158584393 16, dn 7956279995513723 19],
   [dp 8135986682283604 16, dn 7931213351735281 19],
   [dp 8120149237156833 16, dn 790624873897648 18],
   [dp 8104361619636239 16, dn 7881385663495765 19],
   [dp 8088623627138738 16, dn 7856623634272733 19],
   [dp 807293505806058 15, dn 7831962162991493 19],
   [dp 8057295711771956 16, dn 7807400764024134 19],
   [dp 8041705388611637 16, dn 7782938954414307 19],
   [dp 8026163889881652 16, dn 7758576253860916 19],
   [dp 8010671017841989 16, dn 7734312184701913 19],
   [dp 7995226575705333 16, dn 7710146271898207 19],
   [dp 7979830367631838 16, dn 7686078043017676 19],
   [dp 7964482198723931 16, dn 766210702821929 18],
   [dp 7949181875021141 16, dn 7638232760237331 19],
   [dp 7933929203494965 16, dn 7614454774365724 19],
   [dp 7918723992043768 16, dn 7590772608442476 19],
   [dp 7903566049487708 16, dn 7567185802834204 19],
   [dp 7888455185563691 16, dn 7543693900420783 19],
   [dp 7873391210920364 16, dn 7520296446580084 19],
   [dp 7858373937113136 16, dn 7496992989172816 19],
   [dp 784340317659922 15, dn 7473783078527468 19],
   [dp 7828478742732718 16, dn 7450666267425354 19],
   [dp 781360044975973 15, dn 7427642111085756 19],
   [dp 7798768112813492 16, dn 7404710167151157 19],
   [dp 7783981547909542 16, dn 7381869995672581 19],
   [dp 7769240571940921 16, dn 7359121159095033 19],
   [dp 7754545002673398 16, dn 7336463222243019 19],
   [dp 7739894658740724 16, dn 731389575230618 18],
   [dp 7725289359639921 16, dn 7291418318825005 19],
   [dp 7710728925726587 16, dn 7269030493676652 19]]

/-- src/error.rs:362-1259, rows 64-127: `dp m e`, `dn m e` stand for the literals `±m·10^-e` -/
def cheb0Rows_1 : List (List (Int × Nat)) :=
  [[dp 7688972006211272 16, dn 14471231681543412 19],
   [dp 7660118146744753 16, dn 14382745289161297 19],
   [dp 7631440557264844 16, dn 14294960583864501 19],
   [dp 7602937841039766 16, dn 14207870935242794 19],
   [dp 7574608614526956 16, dn 14121469784349968 19],
   [dp 754645150723099 15, dn 1403575064284824 18],
   [dp 7518465161563217 16, dn 13950707092163837 19],
   [dp 7490648232703065 16, dn 13866332782653608 19],
   [dp 7462999388461005 16, dn 13782621432782487 19],
   [dp 7435517309143146 16, dn 13699566828311689 19],
   [dp 7408200687417447 16, dn 1361716282149744 18],
   [dp 738104822818152 15, dn 1353540333030016 18],
   [dp 7354058648432005 16, dn 13454282337603876 19],
   [dp 7327230677135489 16, dn 13373793890445796 19],
   [dp 7300563055100968 16, dn 13293932099255829 19],
   [dp 7274054534853814 16, dn 13214691137105985 19],
   [dp 7247703880511228 16, dn 13136065238969455 19],
   [dp 7221509867659175 16, dn 13058048700989276 19],
   [dp 7195471283230767 16, dn 12980635879756436 19],
   [dp 7169586925386079 16, dn 12903821191597266 19],
   [dp 7143855603393386 16, dn 1282759911187004 18],
   [dp 7118276137511794 16, dn 12751964174270592 19],
   [dp 7092847358875253 16, dn 1267691097014689 18],
   [dp 7067568109377925 16, dn 12602434147822382 19],
   [dp 7042437241560913 16, dn 12528528411928027 19],
   [dp 7017453618500296 16, dn 12455188522742912 19],
   [dp 6992616113696493 16, dn 12382409295543266 19],
   [dp 6967923610964906 16, dn 12310185599959825 19],
   [dp 6943375004327855 16, dn 12238512359343406 19],
   [dp 6918969197907757 16, dn 1216738455013856 18],
   [dp 6894705105821566 16, dn 1209679720126523 18],
   [dp 6870581652076425 16, dn 12026745393508263 19],
   [dp 6846597770466549 16, dn 11957224258914703 19],
   [dp 6822752404471294 16, dn 11888228980198744 19],
   [dp 6799044507154407 16, dn 1181975479015422 18],
   [dp 6775473041064454 16, dn 11751796971074568 19],
   [dp 6752036978136393 16, dn 11684350854180123 19],
   [dp 6728735299594285 16, dn 11617411819052675 19],
   [dp 6705566995855131 16, dn 11550975293077165 19],
   [dp 6682531066433821 16, dn 11485036750890434 19],
   [dp 6659626519849173 16, dn 11419591713836936 19],
   [dp 6636852373531056 16, dn 113546357494313 17],
   [dp 6614207653728582 16, dn 11290164470827667 19],
   [dp 6591691395419355 16, dn 11226173536295705 19],
   [dp 6569302642219753 16, dn 11162658648703199 19],
   [dp 6547040446296247 16, dn 1109961555500514 18],
   [dp 6524903868277735 16, dn 11037040045739231 19],
   [dp 6502891977168868 16, dn 10974927954527699 19],
   [dp 6481003850264381 16, dn 10913275157585346 19],
   [dp 6459238573064391 16, dn 1085207757323376 18],
   [dp 6437595239190667 16, dn 10791331161421579 19],
   [dp 6416072950303848 16, dn 10731031923250757 19],
   [dp 6394670816021605 16, dn 10671175900508712 19],
   [dp 6373387953837737 16, dn 10611759175206327 19],
   [dp 6352223489042175 16, dn 10552777869121677 19],
   [dp 6331176554641905 16, dn 1049422814334943 18],
   [dp 631024629128278 15, dn 10436106197855852 19],
   [dp 6289431847172209 16, dn 10378408271039317 19],
   [dp 6268732378002742 16, dn 10321130639296269 19],
   [dp 624814704687649 15, dn 10264269616592553 19],
   [dp 6227675024230419 16, dn 1020782155404005 18],
   [dp 6207315487762476 16, dn 10151782839478536 19],
   [dp 618706762235854 15, dn 10096149897062695 19],
   [dp 6166930620020209 16, dn 10040919186854239 19]]

/-- src/error.rs:362-1259, rows 128-191: `dp m e`, `dn m e` stand for the literals `±m·10^-e` -/
def cheb0Rows_2 : List (List (Int × Nat)) :=
  [[dp 6136931234582421 16, dn 19917639301181753 19],
   [dp 6097312657440812 16, dn 1970145800041228 18],
   [dp 6058123339966982 16, dn 19488370656330794 19],
   [dp 6019357147752371 16, dn 19278323942129086 19],
   [dp 5981008051981913 16, dn 190712655871806 17],
   [dp 5943070127345129 16, dn 1886714435367685 18],
   [dp 5905537549993384 16, dn 1866591001383023 18],
   [dp 5868404595542178 16, dn 18467513327628312 19],
   [dp 58316656371174 14, dn 18271906021125274 19],
   [dp 5795315143444458 16, dn 18079040765256369 19],
   [dp 575934767697928 15, dn 17888871155161844 19],
   [dp 5723757892080168 16, dn 1770135169000704 18],
   [dp 5688540533219519 16, dn 17516437753285813 19],
   [dp 5653690433234477 16, dn 17334085593594727 19],
   [dp 5619202511615565 16, dn 17154252305865854 19],
   [dp 558507177283241 15, dn 16976895813046353 19],
   [dp 5551293304695669 16, dn 16801974848213296 19],
   [dp 5517862276754303 16, dn 16629448937112569 19],
   [dp 5484773938727351 16, dn 16459278381110935 19],
   [dp 5452023618969403 16, dn 16291424240550715 19],
   [dp 5419606722968962 16, dn 16125848318496749 19],
   [dp 5387518731878941 16, dn 15962513144865639 19],
   [dp 5355755201078508 16, dn 15801381960927556 19],
   [dp 5324311758765584 16, dn 15642418704171104 19],
   [dp 529318410457924 15, dn 1548558799352205 18],
   [dp 5262368008251315 16, dn 1533085511490694 18],
   [dp 5231859308286574 16, dn 151781860071529 17],
   [dp 5201653910670729 16, dn 15027547248215108 19],
   [dp 5171747787605693 16, dn 14878906041723718 19],
   [dp 514213697627142 15, dn 14732230203842178 19],
   [dp 5112817577613726 16, dn 14587488150429133 19],
   [dp 5083785755157492 16, dn 14444648884496313 19],
   [dp 5055037733844655 16, dn 14303681983955003 19],
   [dp 5026569798896433 16, dn 14164557589643905 19],
   [dp 49983782946992084 17, dn 14027246393631344 19],
   [dp 4970459623713544 16, dn 13891719627785058 19],
   [dp 49428102454057965 17, dn 13757949052602871 19],
   [dp 49154266752018144 17, dn 13625906946297841 19],
   [dp 48883054834622147 17, dn 1349556609413153 18],
   [dp 48614432944787483 17, dn 13366899777989354 19],
   [dp 4834836785491282 16, dn 1323988176619196 18],
   [dp 48084826857249235 17, dn 131144863035369 17],
   [dp 4782377775446839 16, dn 1299068810156492 18],
   [dp 47565188850423157 17, dn 12868462329045354 19],
   [dp 47309028941096426 17, dn 1274778460267528 18],
   [dp 47055267305733806 17, dn 12628630977987235 19],
   [dp 46803873698156134 17, dn 1251097794046037 18],
   [dp 465548183382478 15, dn 12394802396830144 19],
   [dp 4630807190361686 16, dn 12280081666591696 19],
   [dp 46063605521423273 17, dn 12166793473692252 19],
   [dp 4582139076037137 16, dn 12054915938407948 19],
   [dp 45581399622863017 17, dn 11944427569400644 19],
   [dp 4534360453730785 16, dn 1183530725595041 18],
   [dp 4510797835058718 16, dn 11727534260359415 19],
   [dp 4487449432066807 16, dn 11621088210523156 19],
   [dp 44643126109364445 17, dn 11515949092664973 19],
   [dp 44413847775241816 17, dn 11412097244229986 19],
   [dp 44186633766662636 17, dn 11309513346934629 19],
   [dp 43961458914969087 17, dn 11208178419968061 19],
   [dp 43738298427800376 17, dn 11108073813341879 19],
   [dp 43517127882541606 17, dn 11009181201384584 19],
   [dp 43297923219901263 17, dn 1091148257637739 18],
   [dp 43080660737614707 17, dn 10814960242328002 19],
   [dp 4286531708427073 16, dn 10719596808879163 19]]

/-- src/error.rs:362-1259, rows 192-255: `dp m e`, `dn m e` stand for the literals `±m·10^-e` -/
def cheb0Rows_3 : List (List (Int × Nat)) :=
  [[dp 4254584917437983 16, dn 21157374583938987 19],
   [dp 4212639595955285 16, dn 2078941404675118 18],
   [dp 41714214783100806 17, dn 20430128213609292 19],
   [dp 41309134673981085 17, dn 2007926621611125 18],
   [dp 4091098959349555 16, dn 1973658563357409 18],
   [dp 405196182695681 15, dn 19401852172135183 19],
   [dp 4013486403730453 16, dn 19074839357316178 19],
   [dp 3975657468557166 16, dn 18755328239435211 19],
   [dp 393846023093446 15, dn 18443107111283114 19],
   [dp 3901880316758252 16, dn 18137971237507922 19],
   [dp 38659037546404074 17, dn 1783972259517911 18],
   [dp 3830516962734394 16, dn 17548169625028634 19],
   [dp 3795706736048178 16, dn 17263126992890234 19],
   [dp 37614602342244285 17, dn 16984415360881537 19],
   [dp 37277649697689735 17, dn 1671186116789541 18],
   [dp 3694608796709308 16, dn 164452964189878 17],
   [dp 3661979899665766 16, dn 16184558483268998 19],
   [dp 36298667833187154 17, dn 15929489899923995 19],
   [dp 35982582622558806 17, dn 1567993819200534 18],
   [dp 35671434511845934 17, dn 15435755687658805 19],
   [dp 3536511755494432 16, dn 15196799348458126 19],
   [dp 3506352862156338 16, dn 14962930604540308 19],
   [dp 3476656730944907 16, dn 14734015196247452 19],
   [dp 34474135859711263 17, dn 14509923021994737 19],
   [dp 34186139075133753 17, dn 14290527992097243 19],
   [dp 3390248424135021 16, dn 14075707888300685 19],
   [dp 33623081050774606 17, dn 13865344228772899 19],
   [dp 33347841529179056 17, dn 13659322138324125 19],
   [dp 3307667996481688 16, dn 13457530223634731 19],
   [dp 3280951283999277 16, dn 1325986045327919 18],
   [dp 32546258764986247 17, dn 1306620804234472 18],
   [dp 3228683841423833 16, dn 12876471341452145 19],
   [dp 3203117446471539 16, dn 12690551729995243 19],
   [dp 31779191536367457 17, dn 1250835351342317 18],
   [dp 31530816134601847 17, dn 12329783824398387 19],
   [dp 31285976594696235 17, dn 12154752527670032 19],
   [dp 31044603028078366 17, dn 11983172128509868 19],
   [dp 3080662727040266 16, dn 118149576845647 17],
   [dp 30571982831356764 17, dn 11650026720985637 19],
   [dp 3034060484613388 16, dn 11488299148700773 19],
   [dp 3011243002850924 16, dn 1132969718570372 18],
   [dp 2988739662546173 16, dn 1117414528123602 18],
   [dp 2966544437328384 16, dn 11021570042746857 19],
   [dp 2944651445512561 16, dn 10871900165518474 19],
   [dp 29230549459920335 17, dn 10725066364850675 19],
   [dp 29017493342641765 17, dn 10581001310702312 19],
   [dp 288072913858448 15, dn 10439639564692122 19],
   [dp 28599890162443325 17, dn 10300917519365453 19],
   [dp 28395237499680787 17, dn 1016477333963749 18],
   [dp 28193282444250867 17, dn 10031146906327303 19],
   [dp 2799397522852729 16, dn 989997976170081 18],
   [dp 27797267237863266 17, dn 9771215056944154 19],
   [dp 2760311097892286 16, dn 9644797501492351 19],
   [dp 2741146004900779 16, dn 9520673314141228 19],
   [dp 2722226910634476 16, dn 9398790175873681 19],
   [dp 2703549384129966 16, dn 9279097184334232 19],
   [dp 2685109094848635 16, dn 9161544809888546 19],
   [dp 26669018099738845 17, dn 9046084853207283 19],
   [dp 2648923391791716 16, dn 8932670404316115 19],
   [dp 26311697951517876 17, dn 8821255803056208 19],
   [dp 26136370650061896 17, dn 8711796600901702 19],
   [dp 25963213340232677 17, dn 8604249524082978 19],
   [dp 25792188202739363 17, dn 8498572437966574 19],
   [dp 2562325824988013 16, dn 8394724312644615 19]]

/-- src/error.rs:362-1259, rows 256-319: `dp m e`, `dn m e` stand for the literals `±m·10^-e` -/
def cheb0Rows_4 : List (List (Int × Nat)) :=
  [[dp 25373712868913567 17, dn 16484588604286602 19],
   [dp 25047987737525357 17, dn 1609018267040129 18],
   [dp 24730017175927557 17, dn 1570903565953491 18],
   [dp 24419541665610442 17, dn 15340586418370623 19],
   [dp 24116312626296485 17, dn 14984301997217854 19],
   [dp 23820091868288185 17, dn 14639676026053825 19],
   [dp 2353065107623657 16, dn 14306227195131048 19],
   [dp 2324777132231403 16, dn 13983497832750673 19],
   [dp 2297124260691743 16, dn 13671052573369753 19],
   [dp 22700863425158718 17, dn 1336847710973185 18],
   [dp 2243644035752167 16, dn 1307537702318902 18],
   [dp 2217778768317557 16, dn 12791376686822709 19],
   [dp 21924727014540366 17, dn 12516118236375203 19],
   [dp 2167708695179387 16, dn 12249260604374527 19],
   [dp 2143470275610041 16, dn 11990478613177519 19],
   [dp 2119741604042271 16, dn 11739462122970184 19],
   [dp 20965074476854986 17, dn 1149591523105406 18],
   [dp 20737531519486083 17, dn 11259555519014084 19],
   [dp 20514646141866902 17, dn 1103011334460944 18],
   [dp 20296282588217426 17, dn 10807331175455568 19],
   [dp 20082310137565043 17, dn 105909629617748 17],
   [dp 19872602880058388 17, dn 10380773545686306 19],
   [dp 19667039504749745 17, dn 10176538104684288 19],
   [dp 19465503098184325 17, dn 9978041627118322 19],
   [dp 19267880953177013 17, dn 9785078417642024 19],
   [dp 1907406438719633 16, dn 959745163073716 18],
   [dp 18883948569811942 17, dn 9414972830550708 19],
   [dp 18697432358696095 17, dn 9237461575403052 19],
   [dp 18514418143701 14, dn 9064745025437266 19],
   [dp 18334811698563785 17, dn 8896657571983016 19],
   [dp 18158522039818215 17, dn 8733040487304566 19],
   [dp 17985461292517987 17, dn 8573741593491431 19],
   [dp 17815544562400545 17, dn 8418614949332743 19],
   [dp 17648689814142632 17, dn 8267520554093113 19],
   [dp 1748481775537978 16, dn 812032406717886 18],
   [dp 17323851726181544 17, dn 7976896542749651 19],
   [dp 17165717593692398 17, dn 7837114178392004 19],
   [dp 1701034365166553 16, dn 7700858077028206 19],
   [dp 1685766052463256 16, dn 7568014021287363 19],
   [dp 16707601076467302 17, dn 7438472259614682 19],
   [dp 16560100323115626 17, dn 7312127303441126 19],
   [dp 16415095349276673 17, dn 7188877734778415 19],
   [dp 1627252522883289 16, dn 7068626023644258 19],
   [dp 16132330948837942 17, dn 6951278354759891 19],
   [dp 15994455336882338 17, dn 6836744462996721 19],
   [dp 15858842991666752 17, dn 6724937477081127 19],
   [dp 15725440216622527 17, dn 6615773771096749 19],
   [dp 1559419495642779 16, dn 6509172823351703 19],
   [dp 15465056736275967 17, dn 6405057082204477 19],
   [dp 15337976603761408 17, dn 6303351838466816 19],
   [dp 15212907073254192 17, dn 620398510402491 18],
   [dp 15089802072643135 17, dn 6106887496341584 19],
   [dp 1496861689233263 16, dn 6011992128522323 19],
   [dp 14849308136385003 17, dn 5919234504646699 19],
   [dp 1473183367570596 16, dn 5828552420084334 19],
   [dp 14616152603176086 17, dn 5739885866531021 19],
   [dp 1450222519063649 16, dn 565317694151594 18],
   [dp 1439001284764157 16, dn 556836976214543 18],
   [dp 14279478081896416 17, dn 5485410382862212 19],
   [dp 1417058446130057 16, dn 5404246717011696 19],
   [dp 14063296577524073 17, dn 5324828462018831 19],
   [dp 13957580011045426 17, dn 5247107027990158 19],
   [dp 13853401297584686 17, dn 5171035469566136 19],
   [dp 13750727895868448 17, dn 5096568420858678 19]]

/-- src/error.rs:362-1259, rows 320-383: `dp m e`, `dn m e` stand for the literals `±m·10^-e` -/
def cheb0Rows_5 : List (List (Int × Nat)) :=
  [[dp 1359947125669697 16, dn 9975561570099785 19],
   [dp 1340277608780958 16, dn 9695898408157266 19],
   [dp 13211559669432923 17, dn 9427584241843967 19],
   [dp 1302560102587985 16, dn 917002516778137 18],
   [dp 12844690678229959 17, dn 8922664928772568 19],
   [dp 12668629919609256 17, dn 868498213420571 18],
   [dp 12497230143695891 17, dn 8456487713222553 19],
   [dp 1233031222201754 16, dn 8236722578967132 19],
   [dp 12167705926016986 17, dn 8025255484444726 19],
   [dp 12009249390231744 17, dn 7821681052490952 19],
   [dp 118547886132658 15, dn 762561796410465 18],
   [dp 11704176993530459 17, dn 7436707290961102 19],
   [dp 11557274897000766 17, dn 7254610959316956 19],
   [dp 11413949254477089 17, dn 707901033376393 18],
   [dp 11274073186060887 17, dn 6909604910402499 19],
   [dp 11137525650752197 17, dn 6746111110004019 19],
   [dp 11004191119255827 17, dn 6588261162623404 19],
   [dp 10873959268245878 17, dn 6435802075926162 19],
   [dp 10746724694485621 17, dn 6288494680213386 19],
   [dp 10622386647333475 17, dn 6146112743775358 19],
   [dp 10500848778287296 17, dn 6008442152786511 19],
   [dp 10382018906329642 17, dn 587528015047877 18],
   [dp 10265808797937048 17, dn 5746434630802869 19],
   [dp 10152133960707922 17, dn 5621723482213594 19],
   [dp 10040913449646936 17, dn 5500973977600042 19],
   [dp 9932069685219902 17, dn 5384022206729998 19],
   [dp 9825528282362489 17, dn 5270712547892491 19],
   [dp 9721217889689598 17, dn 5160897175707701 19],
   [dp 9619070038210166 17, dn 505443560233188 18],
   [dp 9519018998905247 17, dn 4951194249519307 19],
   [dp 9421001648575837 17, dn 48510460492161474 20],
   [dp 932495734341142 16, dn 4753870070554441 19],
   [dp 9230827799771057 17, dn 46595511712902143 20],
   [dp 9138556981706382 17, dn 45679796718897685 20],
   [dp 9048090994790238 17, dn 44790510506138804 20],
   [dp 8959377985846421 17, dn 43926656580824716 20],
   [dp 8872368048205034 17, dn 4308728449923467 19],
   [dp 8787013132134842 17, dn 42271487362201325 20],
   [dp 8703266960128635 17, dn 4147839946572222 19],
   [dp 8621084946740414 17, dn 40707194096786147 20],
   [dp 8540424122694162 17, dn 39957081464336104 20],
   [dp 8461243063003389 17, dn 39227306756064117 20],
   [dp 838350181885845 16, dn 3851714831244172 19],
   [dp 8307161853055255 17, dn 37825915910039674 20],
   [dp 8232185978754218 17, dn 3715294914678633 19],
   [dp 815853830137247 16, dn 3649761592236135 19],
   [dp 8086184163425425 17, dn 3585931100742388 19],
   [dp 8015090092145973 17, dn 35237454695836393 20],
   [dp 794522374972076 16, dn 34631491534470326 20],
   [dp 7876553885993515 17, dn 3404088912557059 19],
   [dp 7809050293494968 17, dn 3346513699701644 19],
   [dp 7742683764668018 17, dn 3290374553614796 19],
   [dp 7677426051165046 17, dn 3235624498313345 19],
   [dp 7613249825102088 17, dn 31822184480135516 20],
   [dp 7550128642161812 17, dn 3130113117279418 19],
   [dp 7488036906443922 17, dn 3079266936078629 19],
   [dp 7426949836967905 17, dn 3029639969444296 19],
   [dp 7366843435738842 17, dn 2981193841461261 19],
   [dp 7307694457292442 17, dn 29338916633147655 20],
   [dp 7249480379640554 17, dn 28876979651569213 20],
   [dp 7192179376543047 17, dn 28425786315627405 20],
   [dp 7135770291036507 17, dn 2798500840362644 19],
   [dp 708023261015415 16, dn 27554330046523695 20],
   [dp 7025546440775346 17, dn 27133447177942626 20]]

/-- src/error.rs:362-1259, rows 384-447: `dp m e`, `dn m e` stand for the literals `±m·10^-e` -/
def cheb0Rows_6 : List (List (Int × Nat)) :=
  [[dp 6945071717732322 17, dn 530397038198473 18],
   [dp 6840577038849942 17, dn 5146673114896613 19],
   [dp 6739159134790351 17, dn 4996225585385337 19],
   [dp 6640684953603677 17, dn 4852238234307503 19],
   [dp 6545028959208049 17, dn 4714348644458844 19],
   [dp 6452072611171365 17, dn 4582219315304814 19],
   [dp 6361703886871219 17, dn 44555356465376283 20],
   [dp 6273816842080845 17, dn 4334004108475919 19],
   [dp 6188311206442508 17, dn 4217350579879937 19],
   [dp 61050920106554156 18, dn 41053188359874306 20],
   [dp 6024069242529227 17, dn 39976691715274814 20],
   [dp 59451575293415895 18, dn 3894177145179644 19],
   [dp 5868275844193456 17, dn 3794632433446249 19],
   [dp 57933472342831145 18, dn 36988377832244203 20],
   [dp 572029856922228 16, dn 36066080535250957 20],
   [dp 56490603076982 15, dn 3517769337809588 19],
   [dp 5579566280947102 17, dn 343215815931764 18],
   [dp 5511753491648672 17, dn 334962073255967 18],
   [dp 5445561926980594 17, dn 3270012284853141 19],
   [dp 5380934384688174 17, dn 31931964324100667 20],
   [dp 5317816311128282 17, dn 31190446060394133 20],
   [dp 525615565034047 16, dn 30474355220231594 20],
   [dp 5195902703282533 17, dn 2978254694165413 19],
   [dp 5137009996443711 17, dn 29113939834067576 20],
   [dp 507943215911737 16, dn 2846751181746544 19],
   [dp 5023125808676943 17, dn 27842296275290746 20],
   [dp 4968049443254916 17, dn 27237378494298487 20],
   [dp 49141633412753925 18, dn 2665189236729046 19],
   [dp 4861429467336723 17, dn 2608501733684504 19],
   [dp 4809811383982387 17, dn 2553597556018507 19],
   [dp 4759274168936168 17, dn 2500402927714302 19],
   [dp 4709784337412112 17, dn 2448847836481664 19],
   [dp 4661309769141039 17, dn 2398865806397981 19],
   [dp 46138196397839185 18, dn 2350393686364012 19],
   [dp 45672843564284235 18, dn 230337145313324 18],
   [dp 4521675496888689 17, dn 22577420277819166 20],
   [dp 4476965752549958 17, dn 22134511045847417 20],
   [dp 4433128874519618 17, dn 2170446991349696 19],
   [dp 43901396228642316 18, dn 21286804603457793 20],
   [dp 434797371872875 16, dn 2088104609030202 19],
   [dp 4306607799149306 17, dn 20486747298476308 20],
   [dp 4266019374384902 17, dn 2010348188434129 19],
   [dp 4226186787606129 17, dn 1973084309613 16],
   [dp 4187089176790777 17, dn 19368442706194463 20],
   [dp 41487064386870214 18, dn 19015910010361926 20],
   [dp 41110191947147795 18, dn 18672890889634972 20],
   [dp 40740087586850215 18, dn 18339046929846225 20],
   [dp 40376571062252085 18, dn 18014054595222087 20],
   [dp 40019468458068364 18, dn 17697604452124267 20],
   [dp 39668611912781974 18, dn 17389400439525173 20],
   [dp 39323839358121455 18, dn 1708915918303633 19],
   [dp 3898499427184708 17, dn 1679660934954997 19],
   [dp 386519254430609 16, dn 1651149103977477 19],
   [dp 3832448674930821 17, dn 16233555216149475 20],
   [dp 3800253694478663 17, dn 15962563163804066 20],
   [dp 376859394590235 16, dn 15698285982409133 20],
   [dp 3737456220542429 17, dn 15440504106911164 20],
   [dp 3706827739913301 17, dn 15189006855296093 20],
   [dp 3676696138368155 17, dn 14943592001656449 20],
   [dp 364704944659381 16, dn 14704065372960032 20],
   [dp 36178760758895666 18, dn 1447024046803113 19],
   [dp 3589164803187044 17, dn 1424193809735936 19],
   [dp 3560904756770659 17, dn 1401898604244756 19],
   [dp 3533085402660871 17, dn 13801218733498934 20]]

/-- src/error.rs:362-1259 `CHEBYSHEV_COEFFS_0`, as rows of 2 -/
def cheb0Rows : List (List (Int × Nat)) :=
  cheb0Rows_0 ++ cheb0Rows_1 ++ cheb0Rows_2 ++ cheb0Rows_3 ++ cheb0Rows_4 ++ cheb0Rows_5 ++ cheb0Rows_6

/-- src/error.rs:1261-4846, rows 0-63: `dp m e`, `dn m e` stand for the literals `±m·10^-e` -/
def cheb1Rows_0 : List (List (Int × Nat)) :=
  [[dp 7227635731337331 22, dn 5048499485391656 25, dp 313586201559153 27, dn 17715352193375965 32, dp 9242165795315633 35, dn 45021909457012356 39, dp 2065035689267159 41, dn 8976837551444289 45],
   [dp 7197419853612048 22, dn 5023483303052798 25, dp 31182019905625017 29, dn 1760482346454281 31, dp 9179365803962325 35, dn 4469279301295192 38, dp 20489441076733733 42, dn 8902803316034542 45],
   [dp 7167353650022922 22, dn 4998607959802216 25, dp 31006521183820853 29, dn 17495045578221887 32, dp 9117024778338832 35, dn 44366240590507686 39, dp 203298520867918 40, dn 8829411479548639 45],
   [dp 7137436278173096 22, dn 4973872577413163 25, dp 3083211650954399 28, dn 17386013048302913 32, dp 9055139143632263 35, dn 44042231052701166 39, dp 20171578412283232 42, dn 875665620464761 44],
   [dp 7107666900917163 22, dn 494927628362177 24, dp 30658798456482796 29, dn 17277720431396315 32, dp 8993705354492971 35, dn 43720743445884826 39, dp 2001460864721877 41, dn 8684531709324467 45],
   [dp 7078044686325521 22, dn 4924818212083502 25, dp 30486559652547426 29, dn 17170162326481217 32, dp 8932719894779055 35, dn 4340175699807687 38, dp 1985893148919141 41, dn 8613032266358863 45],
   [dp 704856880764898 21, dn 4900497502329945 25, dp 30315392779447836 29, dn 1706333337455647 31, dp 8872179277303184 35, dn 4308525111731178 38, dp 19704535738395097 42, dn 8542152202777339 45],
   [dp 7019238443283648 22, dn 4876313299725942 25, dp 30145290572275345 29, dn 16957228258294694 32, dp 8812080043581723 35, dn 42771205390006504 39, dp 19551410296653097 42, dn 8471885899319074 45],
   [dp 6990052776736043 22, dn 4852264755427043 25, dp 2997624581908761 28, dn 16851841701699345 32, dp 875241876358613 34, dn 42459599579342074 39, dp 19399544166455945 42, dn 8402227789907091 45],
   [dp 6961010996588485 22, dn 4828351026337306 25, dp 2980825136049701 28, dn 1674716846976471 31, dp 8693192035496612 35, dn 4215041362366059 38, dp 19248926450008845 42, dn 8333172361124865 45],
   [dp 6932112296464733 22, dn 4804571275067413 25, dp 2964130008926243 28, dn 16643203368138895 32, dp 863439648545801 34, dn 4184362763487731 38, dp 19099546348288462 42, dn 8264714151698268 45],
   [dp 6903355874995861 22, dn 4780924669893114 25, dp 29475384949884415 29, dn 16539941242789687 32, dp 85760287673379 33, dn 41539221896907837 39, dp 18951393160108967 42, dn 81968477519828 43],
   [dp 6874740935786398 22, dn 4757410384713998 25, dp 293104989382036 27, dn 1643737697967332 31, dp 8518085562486888 35, dn 41237176864110095 39, dp 188044562811973 40, dn 8129567803456049 45],
   [dp 6846266687380707 22, dn 4734027599012576 25, dp 29146635101002487 29, dn 1633550550440612 31, dp 8460563579501067 35, dn 4093747315974106 38, dp 18658725203277487 42, dn 8062868998215323 45],
   [dp 6817932343229608 22, dn 4710775497813691 25, dp 2898378653561048 28, dn 1623432178193896 31, dp 8403459553986638 35, dn 40640091574428116 39, dp 1851418951316396 41, dn 7996746078480402 45],
   [dp 6789737121657248 22, dn 468765327164423 24, dp 28821946389512134 29, dn 16133820816234542 32, dp 8346770248326646 35, dn 4034501306465475 38, dp 18370838891863815 42, dn 7931193836101354 45],
   [dp 6761680245828202 22, dn 4664660116493165 25, dp 2866110785995866 28, dn 16033997649947473 32, dp 8290492451449834 35, dn 4005221875126063 38, dp 18228663113687832 42, dn 7866207112071367 45],
   [dp 6733760943714829 22, dn 4641795233771885 25, dp 2850126419358259 28, dn 15934847364107088 32, dp 823462297860159 34, dn 3976168991795579 38, dp 18087652045370264 42, dn 7801780796044531 45],
   [dp 6705978448064847 22, dn 46190578302748495 26, dp 2834240868601559 28, dn 1583636507780301 31, dp 8179158671116959 35, dn 39473408009848833 39, dp 17947795645197236 42, dn 7737909825858538 45],
   [dp 6678331996369159 22, dn 45964471181405394 26, dp 28184534681509443 29, dn 15738545947873426 32, dp 8124096396195703 35, dn 39187354631989017 39, dp 178090839621437 40, dn 7674589187062222 45],
   [dp 6650820830829899 22, dn 45739623148127115 26, dp 28027635572560077 29, dn 1564138516859606 31, dp 8069433046679401 35, dn 38903511547922104 39, dp 17671507135018857 42, dn 761181391244792 44],
   [dp 6623444198328721 22, dn 4551602643001952 25, dp 27871704799534734 29, dn 15544877971381792 32, dp 8015165540830559 35, dn 38621860678259775 39, dp 1753505539161993 41, dn 7549579081588575 45],
   [dp 6596201350395309 22, dn 452936733064753 24, dp 27716735850302154 29, dn 15449019624470912 32, dp 7961290822113701 35, dn 38342384099262533 39, dp 17399719047894266 42, dn 7487879820379549 45],
   [dp 6569091543176121 22, dn 4507255610879539 25, dp 2756272225986577 28, dn 1535380543263202 31, dp 790780585897846 34, dn 38065064041435966 39, dp 17265488507109605 42, dn 7426711300585073 45],
   [dp 6542114037403356 22, dn 44852667219813384 26, dp 27409657609999936 29, dn 15259230736863477 32, dp 7854707644644595 35, dn 37789882888140196 39, dp 1713235425903249 41, dn 7366068739389336 45],
   [dp 6515268098364145 22, dn 44633999073522805 26, dp 2725753552888912 28, dn 15165290914097463 32, dp 7801993196888968 35, dn 37516823174212414 39, dp 17000306879114724 42, dn 7305947398952093 45],
   [dp 648855299586997 21, dn 4441654415470724 25, dp 2710634969077 25, dn 15071981376906536 32, dp 7749659557834437 35, dn 3724586758460239 38, dp 16869337027687758 42, dn 7246342585968808 45],
   [dp 6461968004226294 22, dn 4420029499857338 25, dp 2695609381557656 28, dn 14979297573212765 32, dp 7697703793740634 35, dn 36976998953020767 39, dp 1673943544916499 41, dn 7187249651235248 45],
   [dp 6435512402202423 22, dn 43985244190386805 26, dp 26806761668588006 29, dn 14887234985999308 32, dp 7646122994796648 35, dn 36710200260600106 39, dp 16610592971251834 42, dn 7128663989216488 45],
   [dp 6409185473001577 22, dn 4377138436511066 25, dp 2665834706007961 28, dn 1479578913302451 31, dp 7594914274915563 35, dn 36445454634568454 39, dp 16482800504163526 42, dn 7070581037620297 45],
   [dp 6382986504231175 22, dn 43558708207047057 26, dp 26510843844976356 29, dn 14704955566538438 32, dp 7544074771530841 35, dn 3618274534693543 38, dp 16356049039850556 42, dn 7012996276974832 45],
   [dp 6356914787873345 22, dn 4334720844948125 25, dp 26364245922509445 29, dn 1461472987300184 31, dp 7493601645394545 35, dn 3592205581319057 38, dp 16230329651231672 42, dn 6955905230210626 45],
   [dp 6330969620255637 22, dn 4313687787432856 25, dp 26218547235875584 29, dn 1452510767280753 31, dp 7443492080377371 35, dn 3566336959101395 38, dp 16105633491434374 42, dn 6899303462246785 45],
   [dp 6305150302021948 22, dn 42927709311784003 26, dp 26073741771899033 29, dn 14436084620004155 32, dp 7393743283270475 35, dn 3540667037899886 38, dp 15981951793042797 42, dn 68431865795814 43],
   [dp 6279456138103666 22, dn 42719695639974595 26, dp 2592982356069644 28, dn 14347656402022324 32, dp 7344352483589077 35, dn 35151942015386476 39, dp 1585927586735296 41, dn 6787550229886079 45],
   [dp 6253886437691004 22, dn 4251282978461438 25, dp 2578678667534436 28, dn 14259818739403095 32, dp 7295316933377847 35, dn 34899168476812364 39, dp 15737597103635252 42, dn 6732390101604603 45],
   [dp 6228440514204559 22, dn 4230710471866203 25, dp 25644625231549516 29, dn 14172567385528784 32, dp 7246633907018004 35, dn 34648333877064757 39, dp 1561690696840412 41, dn 6677701923555615 45],
   [dp 6203117685267066 22, dn 4210251346198114 25, dp 25503333387321704 29, dn 14085898126356061 32, dp 719830070103618 34, dn 34399422465854457 39, dp 15497197004694856 42, dn 6623481464539348 45],
   [dp 617791727267535 21, dn 418990490810031 24, dp 25362905342649396 29, dn 1399980678015136 31, dp 7150314633914981 35, dn 341524186275962 37, dp 1537845883134746 41, dn 6569724532948309 45],
   [dp 6152838602372494 22, dn 41696704688392554 26, dp 25223335339177937 29, dn 13914289197228516 32, dp 7102673045905237 35, dn 3390730688020152 38, dp 15260684142297423 42, dn 6516426976381903 45],
   [dp 6127881004420196 22, dn 4149547344271541 25, dp 25084617659890387 29, dn 1382934125968869 31, dp 7055373298839958 35, dn 33664071873882784 39, dp 15143864705873473 42, dn 6463584681264954 45],
   [dp 6103043812971324 22, dn 41295348548109426 26, dp 2494674662879093 28, dn 13744958881162468 32, dp 7008412775949935 35, dn 3342269838996855 38, dp 15027992364102094 42, dn 6411193572470053 45],
   [dp 6078326366242673 22, dn 4109632325395728 25, dp 24809716610590854 29, dn 13661138006554195 32, dp 6961788881681005 35, dn 33183171339729856 39, dp 1491305903201886 41, dn 6359249612943753 45],
   [dp 605372800648792 21, dn 40898390854562185 26, dp 2467352201039712 28, dn 13577874611788484 32, dp 6915499041512942 35, dn 3294547576321757 38, dp 1479905669698642 41, dn 6307748803336496 45],
   [dp 6029248079970762 22, dn 4070154468882593 25, dp 2453815727340336 28, dn 13495164703558884 32, dp 6869540701779979 35, dn 3270959682811057 38, dp 1468597741801915 41, dn 6256687181636292 45],
   [dp 6004885936938255 22, dn 40505778139929443 26, dp 2440361688458347 28, dn 13413004319078697 32, dp 6823911329492921 35, dn 3247551982857468 38, dp 14573813325114323 42, dn 6206060822806094 45],
   [dp 5980640931594342 22, dn 40311084635015745 26, dp 2426989536838767 28, dn 1333138952583392 31, dp 6778608412162863 35, dn 32243230184132225 39, dp 14462556618589817 42, dn 6155865838424811 45],
   [dp 595651242207357 21, dn 4011745764487537 25, dp 2413698728844094 28, dn 13250316421338287 32, dp 6733629457626472 35, dn 32012713438542187 39, dp 1435219956842822 41, dn 6106098376331944 45],
   [dp 5932499770414998 22, dn 3992489068363412 25, dp 24004887247244026 29, dn 13169781132890401 32, dp 6688971993872836 35, dn 31783955258690764 39, dp 14242734513627308 42, dn 6056754620275803 45],
   [dp 5908602342536284 22, dn 3973337730844332 25, dp 23873589885876753 29, dn 13089779817332953 32, dp 6644633568871853 35, dn 3155694143349228 38, dp 14134153861556847 42, dn 6007830789565262 45],
   [dp 5884819508207964 22, dn 39542911119172285 26, dp 237430898837038 27, dn 13010308660813947 32, dp 6600611750404156 35, dn 3133165787280034 38, dp 14026450087321575 42, dn 595932313872501 44],
   [dp 5861150641027918 22, dn 3935348575810327 25, dp 23613381958082826 29, dn 1293136387855001 31, dp 655690412589256 34, dn 31108090606329136 39, dp 1391961573313043 41, dn 59112279571542836 46],
   [dp 5837595118396 19, dn 3916509490962865 25, dp 2348446086407496 28, dn 1285294171459167 31, dp 6513508302234997 35, dn 30886225782584757 39, dp 13813643407671828 42, dn 58635415687890185 46],
   [dp 581415232148888 21, dn 38977732299950463 26, dp 23356321394157624 29, dn 12775038441590661 32, dp 6470421905638958 35, dn 3066604966780651 38, dp 1370852578549503 41, dn 5816260331767403 45],
   [dp 5790821635235033 22, dn 38791391696782207 26, dp 23228958377939676 29, dn 12697650360569193 32, dp 6427642581457393 35, dn 3044754864491803 38, dp 13604255606397484 42, dn 5769380638098786 45],
   [dp 5767602448289927 22, dn 3860606690905293 25, dp 23102366681878864 29, dn 12620773800691176 32, dp 6385167994026094 35, dn 30230709212488193 39, dp 135008256748181 40, dn 5722898913335915 45],
   [dp 5744494153011383 22, dn 38421751786613547 26, dp 2297654120900152 28, dn 12544405119035409 32, dp 6342995826502497 35, dn 30015517983701656 39, dp 13398228859236386 42, dn 5676811616250465 45],
   [dp 5721496145435105 22, dn 38238440219945436 26, dp 22851476898624567 29, dn 1246854070037066 31, dp 6301123780705952 35, dn 29801961685338967 39, dp 13296458091577416 42, dn 5631115238511817 45],
   [dp 5698607825250396 22, dn 3805612613987118 25, dp 22727168726079712 29, dn 12393176956932696 32, dp 6259549576959386 35, dn 2959002715676618 38, dp 13195506366622526 42, dn 5585806304369067 45],
   [dp 567582859577603 21, dn 37874803517267565 26, dp 2260361170243989 28, dn 12318310328203168 32, dp 6218270953932386 35, dn 2937970134893381 38, dp 13095366741425723 42, dn 55408813703362206 46],
   [dp 5653157863936315 22, dn 37694466362780744 26, dp 22480800874247905 29, dn 12243937280690388 32, dp 6177285668485681 35, dn 29170971323385134 39, dp 12996032334735726 42, dn 5496337024880541 45],
   [dp 5630595040237306 22, dn 3751510872654353 25, dp 22358731323247257 29, dn 1217005430771197 31, dp 6136591495516997 35, dn 2896382425127361 38, dp 12897496326423592 42, dn 54521698881140246 46],
   [dp 5608139538743204 22, dn 37336724697894887 26, dp 22237398166115111 29, dn 12096657929179292 32, dp 6096186227808287 35, dn 28758247412389527 39, dp 12799751956915851 42, dn 5408376611487967 45],
   [dp 5585790777052918 22, dn 3715930840510151 25, dp 22116796554197454 29, dn 12023744691383804 32, dp 6056067675874315 35, dn 2855422819419556 38, dp 12702792526633141 42, dn 53649538774905826 46]]

/-- src/error.rs:1261-4846, rows 64-127: `dp m e`, `dn m e` stand for the literals `±m·10^-e` -/
def cheb1Rows_1 : List (List (Int × Nat)) :=
  [[dp 22209866025131884 22, dn 2951598857701975 24, dp 3509960841883914 27, dn 3812887434538193 30, dp 38377105240171656 34, dn 3616139850000721 36, dp 32150600302739404 40, dn 27138632484194876 43],
   [dp 2203360944314813 21, dn 29236710744498927 25, dp 3472061221240763 27, dn 37671372291066785 31, dp 37874428357737806 34, dn 35650876918416386 37, dp 31666017008049965 40, dn 26705161357100577 43],
   [dp 21859019468730413 22, dn 28960446661690662 25, dp 3434616100831138 27, dn 3721985969174995 30, dp 3737884479429115 33, dn 3514804658515008 36, dp 31189170384797135 40, dn 26278981066172905 43],
   [dp 2168607812798305 21, dn 2868716020702383 24, dp 33976195335454627 28, dn 36774252070217065 31, dp 36890247733982616 34, dn 3465278475743151 36, dp 30719930358090418 40, dn 2585996309597935 42],
   [dp 2151476766231922 21, dn 28416815731334013 25, dp 3361065656113904 27, dn 3633446622079157 30, dp 3640853206487964 33, dn 3416497075528478 36, dp 30258169144968147 40, dn 25447981295700165 43],
   [dp 2134507052564653 21, dn 281493780512069 23, dp 3324948687844996 27, dn 3590042018905999 30, dp 3593359435034202 33, dn 33684485925202386 37, dp 29803761212243173 40, dn 25042911833867128 43],
   [dp 21176969381592237 22, dn 27884812442421805 25, dp 32892629293843773 28, dn 3547203325193761 30, dp 3546533280090184 33, dn 33211213604480833 37, dp 2935658323515508 39, dn 2464463315400092 42],
   [dp 21010447100767514 22, dn 27623084633493688 25, dp 32540027614932853 28, dn 3504922589806868 30, dp 3500364724663798 33, dn 3274503908621135 36, dp 28916514056813026 40, dn 24253025931128743 43],
   [dp 2084548675807016 21, dn 27364160799312123 25, dp 32191626438464933 28, dn 34631919808555155 31, dp 34548439110036324 34, dn 32285849584913376 37, dp 28483434648413472 40, dn 2386797302916406 42],
   [dp 20682071630025206 22, dn 2710800755487565 24, dp 3184737113849351 27, dn 34220037838008274 31, dp 34099611379326657 34, dn 31833534202798447 37, dp 28057228070217432 40, dn 2348935945913082 42],
   [dp 20520185192162813 22, dn 26854591949120026 25, dp 31507207854736193 28, dn 33813503995917258 31, dp 33657068582287486 34, dn 3138798389665244 36, dp 2763777943327224 39, dn 23117072338214775 43],
   [dp 20359811116432943 22, dn 2660388145883887 24, dp 31171083481117766 28, dn 334122434283296 29, dp 332207167605103 32, dn 3094909144532444 36, dp 27224975861863057 40, dn 2275100084962502 42],
   [dp 20200933268656203 22, dn 26355843982695202 25, dp 3083894565449493 27, dn 33016182399837464 31, dp 3279046344411478 33, dn 30516751417810646 37, dp 26818706456679724 40, dn 2239103620324911 42],
   [dp 200435357060104 20, dn 2611044783532253 24, dp 30510742743559663 28, dn 3262524827586484 30, dp 32366217626906734 34, dn 3009086014192194 36, dp 26418862258684777 40, dn 22037071597085588 43],
   [dp 19887602674552166 22, dn 25867661741513923 25, dp 30186423837918244 28, dn 32239369505250183 31, dp 31947889741970686 34, dn 2967131567352409 36, dp 26025336213668836 40, dn 216890021794379 41],
   [dp 1973311860677323 21, dn 25627454830497845 25, dp 2986593873734298 27, dn 31858475603119372 31, dp 3153539163768912 33, dn 2925801776633961 36, dp 25638023137479723 40, dn 21346725011854326 43],
   [dp 19580068119190773 22, dn 25389796630299225 25, dp 29549237941193766 28, dn 31482497134043926 31, dp 31128636554180683 34, dn 2885086784230072 36, dp 2525681968191211 39, dn 2101013903279848 42],
   [dp 19428436009971327 22, dn 25154657062184528 25, dp 2923627263800668 27, dn 3111136569547949 30, dp 30727539100149586 34, dn 28449768962442805 37, dp 2488162430124459 39, dn 20679145022035673 43],
   [dp 1927820725658781 21, dn 2492200643518943 24, dp 289269946952468 26, dn 30745013901479658 31, dp 3033201523013884 33, dn 2805462579832822 36, dp 24512337219411502 40, dn 20353645565720402 43],
   [dp 1912936701350912 21, dn 24691815440727852 25, dp 2862135664922251 27, dn 30383375366680437 31, dp 29941982222179832 34, dn 27665344603990342 37, dp 24148860397796938 40, dn 2003354502217072 42],
   [dp 18981900609921835 22, dn 24464055147281008 25, dp 28319311695158664 28, dn 3002638469055053 30, dp 2955735865583119 33, dn 27281833188388013 37, dp 23791097503638774 40, dn 19718749488315536 43],
   [dp 18835793547483533 22, dn 24238696995165275 25, dp 280208136774259 26, dn 2967397744190284 30, dp 2917806439059966 33, dn 2690400088836075 36, dp 2343895387903067 39, dn 19409166766801107 43],
   [dp 186910314981073 20, dn 24015712791377584 25, dp 27725817079923593 28, dn 29326090143662725 31, dp 2880402054473627 33, dn 26531758542075155 37, dp 23092336510510334 40, dn 191047063337433 41],
   [dp 1854760030177692 21, dn 2379507470451716 24, dp 274342770166138 26, dn 28982660257888404 31, dp 28435149474400775 34, dn 26165018462953368 37, dp 2275115399922252 39, dn 18805279307112602 43],
   [dp 18405485964392288 22, dn 2357675525978239 24, dp 2714614922220384 27, dn 28643626171039293 31, dp 2807137475318784 33, dn 25803694414074337 37, dp 22415316531645517 40, dn 1851079841573886 42],
   [dp 18264674655644664 22, dn 2336072733404164 24, dp 2686139004297487 27, dn 28308927179487822 31, dp 2771262115200831 33, dn 2544770158303905 36, dp 2208473585087005 39, dn 18221177968923364 43],
   [dp 18125152706921239 22, dn 23146964150976873 25, dp 26579956427754256 28, dn 27978503475270617 31, dp 27358814619319185 34, dn 25096956557290945 37, dp 21759325228419805 40, dn 17936333826645798 43],
   [dp 17986906609238654 22, dn 2293543927629891 24, dp 26301805919029147 28, dn 2765229613207485 30, dp 27009882261695976 34, dn 24751377299882953 37, dp 2143899943660296 39, dn 1765618337035411 42],
   [dp 17849923011205004 22, dn 22726126613033243 25, dp 2602689664419909 27, dn 27330247091455705 31, dp 2666575232474125 33, dn 244108831256827 35, dp 2112367472138434 39, dn 173806454743254 41],
   [dp 17714188717009912 22, dn 22519000396875274 25, dp 25755187306965328 28, dn 27012299149280937 31, dp 2632635417432326 33, dn 24075394678007696 37, dp 20813268775768027 40, dn 17109640477586395 43],
   [dp 17579690684442279 22, dn 2231403519161387 24, dp 2548663717885448 27, dn 26698395942398636 31, dp 2599161827813874 33, dn 23744833905682338 37, dp 20507700713680443 40, dn 16843090156382044 43],
   [dp 17446416022935282 22, dn 2211120588462225 24, dp 25221206090874544 28, dn 26388481935524314 31, dp 25661476187593998 34, dn 234191240405089 35, dp 20206891044344164 40, dn 16580917697181284 43],
   [dp 17314351991638227 22, dn 21910487682415074 25, dp 24958854425300824 28, dn 26082502408343526 31, dp 25335860519998547 34, dn 23098189575144612 37, dp 19910761647132862 40, dn 16323047670209043 43],
   [dp 17183485997514871 22, dn 2171185610627071 24, dp 2469954310758988 27, dn 25780403442826362 31, dp 2501470494106567 33, dn 22781956241377342 37, dp 1961923574689803 39, dn 16069406003493914 43],
   [dp 1705380559346781 21, dn 2151528698791774 24, dp 2444323359841922 27, dn 2548213191075005 30, dp 2469794414771437 33, dn 2247035098879229 36, dp 19332237889758255 40, dn 15819919957421044 43],
   [dp 16925298476488552 22, dn 2132075646528459 24, dp 24189887885850753 28, dn 25187635461426225 31, dp 24385513851167316 34, dn 2216330196382242 36, dp 19049693919342126 40, dn 15574518099780108 43],
   [dp 16797952485832933 22, dn 2112824097831142 24, dp 23939468477616 25, dn 24896862509629218 31, dp 2407735076033939 33, dn 21860738489175444 37, dp 18771530953475826 40, dn 15333130281298359 43],
   [dp 16671755601221434 22, dn 20937717264823213 25, dp 23691938393520967 28, dn 2460976222372201 30, dp 2377339256551172 33, dn 21562591043630303 37, dp 1849767736130691 39, dn 1509568761164901 42],
   [dp 16546695941064117 22, dn 20749162356463167 25, dp 23447261157968843 28, dn 24326284513976372 31, dp 2347357792228598 33, dn 2126879124219623 36, dp 18228062740855655 40, dn 14862122435925369 43],
   [dp 16422761760709768 22, dn 20562553574685445 25, dp 23205400792598495 28, dn 2404638002108392 30, dp 2317784643581396 33, dn 2097927181662761 36, dp 1796261789698582 39, dn 14632368311571385 43],
   [dp 16299941450718893 22, dn 2037786852680635 24, dp 2296632180903695 27, dn 23770000104854786 31, dp 2288613864529751 33, dn 20693966596288056 37, dp 17701274819786574 40, dn 14406359985759411 43],
   [dp 16178223535160261 22, dn 2019508510211305 24, dp 22729989201763935 28, dn 2349709683310067 30, dp 22598396008753954 34, dn 20412810489357058 37, dp 17443966663357675 40, dn 14184033373206238 43],
   [dp 16057596669930607 22, dn 20014181468028888 25, dp 2249636844108668 27, dn 23227622970699196 31, dp 22314560888042233 34, dn 2013573946437297 36, dp 17190627724990096 40, dn 1396532553441858 42],
   [dp 15938049641097178 22, dn 19835136066334564 25, dp 22265425466223233 28, dn 22961531968836317 31, dp 22034576534145194 34, dn 19862690532105957 37, dp 1694119342473443 39, dn 13750174654359408 43],
   [dp 15819571363262784 22, dn 19657927609444107 25, dp 22037126678492377 28, dn 22698777954423925 31, dp 217583870727033 32, dn 19593601727754787 37, dp 1669560028534955 39, dn 13538520021526719 43],
   [dp 15702150877953042 22, dn 19482535076734986 25, dp 2181143893460861 27, dn 22439315719689486 31, dp 21485937489795416 34, dn 19328412093461478 37, dp 16453785912624246 40, dn 13330302007436447 43],
   [dp 1558577735202547 21, dn 19308937710931405 25, dp 2158832954008032 27, dn 22183100711934897 31, dp 21217173617962186 34, dn 1906706166113784 36, dp 16215688976064554 40, dn 13125462046501481 43],
   [dp 15470440076100124 22, dn 19137115014540024 25, dp 2136776624270954 27, dn 21930089023461606 31, dp 2095204212246765 33, dn 18809491435598147 37, dp 1598124918993978 39, dn 12923942616298814 43],
   [dp 15356128463011467 22, dn 18967046746337295 25, dp 2114971722619166 27, dn 21680237381659195 31, dp 20690490487794955 34, dn 18555643377992254 37, dp 15750407294680265 40, dn 1272568721821712 42],
   [dp 15242832046281156 22, dn 18798712917907552 25, dp 20934151103813443 28, dn 2143350313925461 30, dp 204324670043719 32, dn 18305460389533576 37, dp 1552310503862015 39, dn 12530640358477115 43],
   [dp 1513054047861147 21, dn 18632093790231203 25, dp 20721036912247706 28, dn 2118984426471936 30, dp 2017792075552223 33, dn 1805888629551646 36, dp 15299285160078448 40, dn 12338747529517318 43],
   [dp 15019243530399028 22, dn 18467169870322117 25, dp 2051034410544323 27, dn 20949219332831923 31, dp 19926801604638757 34, dn 1781586582961761 36, dp 15078891369771956 40, dn 12149955191737879 43],
   [dp 14908931088268568 22, dn 18303921907913556 25, dp 20302042548608223 28, dn 2071158751539282 30, dp 19679060182574244 34, dn 17576344618476282 37, dp 14861868333553613 40, dn 11964210755595352 43],
   [dp 14799593153626442 22, dn 18142330892191861 25, dp 20096102512285907 28, dn 2047690857208965 30, dp 19434647875246283 34, dn 17340269166548093 37, dp 14648161655470022 40, dn 11781462564041453 43],
   [dp 14691219841233589 22, dn 1798237804857716 24, dp 19892494666520694 28, dn 2024514284150964 30, dp 19193516811452308 34, dn 17107586841227433 37, dp 14437717861132061 40, dn 11601659875298923 43],
   [dp 14583801377797668 22, dn 17824044835550406 25, dp 19691190075113527 28, dn 20016251232297167 31, dp 18955619850891062 34, dn 16878245858233442 37, dp 14230484381392526 40, dn 11424752845967801 43],
   [dp 144773281005841 20, dn 1766731294152599 24, dp 19492160189964937 28, dn 19790195214453798 31, dp 1872091057238684 33, dn 1665219526725474 36, dp 14026409536324939 40, dn 1125069251445556 42],
   [dp 1437179045604574 21, dn 17512164281769313 25, dp 19295376845504377 28, dn 19566936810778423 31, dp 1848934326231291 33, dn 16429384937848144 37, dp 13825442519497749 40, dn 11079430784724653 43],
   [dp 142671789984709 20, dn 17358580995358527 25, dp 1910081225320446 27, dn 1934643858844518 30, dp 18260872903210612 34, dn 16209765545586634 37, dp 13627533382538277 40, dn 1091092041035118 42],
   [dp 14163484388649477 22, dn 1720654544218987 24, dp 1890843899617878 27, dn 19128663650716725 31, dp 1803545516260067 33, dn 15993288558452058 37, dp 1343263301998083 39, dn 1074511497888851 42],
   [dp 1406069739255694 21, dn 17056040200025871 25, dp 18718230023861884 28, dn 18913575628790683 31, dp 17813046381983314 34, dn 15779906223467985 37, dp 13240693154393597 40, dn 10581968896529801 43],
   [dp 1395880888005586 21, dn 16907048061585783 25, dp 18530158646770147 28, dn 1870113867377697 30, dp 1759360356602389 33, dn 15569571553568375 37, dp 13051666321778954 40, dn 10421437373063522 43],
   [dp 13857809823614798 22, dn 1675955203167763 24, dp 18344198531342234 28, dn 18491317448803777 31, dp 17377084371920677 34, dn 15362238314697655 37, dp 12865505857241983 40, dn 10263476407116139 43],
   [dp 13757691297044288 22, dn 16613535324371198 25, dp 1816032369485785 27, dn 1828407712125007 30, dp 1716344709895171 33, dn 15157861013138009 37, dp 12682165880922083 40, dn 10108042771676346 43]]

/-- src/error.rs:1261-4846, rows 128-191: `dp m e`, `dn m e` stand for the literals `±m·10^-e` -/
def cheb1Rows_2 : List (List (Int × Nat)) :=
  [[dp 5443658088272057 21, dn 13117798225210366 24, dp 28621384561309207 27, dn 5752953867676684 29, dp 10782915278930216 32, dn 19016626833663775 35, dp 3177576434506839 37, dn 505834690219623 39],
   [dp 5365633635538944 21, dn 12891111183528917 24, dp 28052506031010867 27, dn 562514214689117 28, dp 10520207630507995 32, dn 18515428585384495 35, dp 30878983606412186 38, dn 4906683017596853 40],
   [dp 5288955753593423 21, dn 12668924462943055 24, dp 27496252441574075 27, dn 55004412159507467 30, dp 10264417329904055 32, dn 18028362649024797 35, dp 30009068261359613 38, dn 4759815969329645 40],
   [dp 5213597741035377 21, dn 12451138297252734 24, dp 269523168251515 25, dn 5378769241856251 29, dp 10015349501686499 32, dn 1755500601213889 34, dp 29165169293143787 38, dn 4617586526480507 40],
   [dp 513953348775966 20, dn 12237655343576931 24, dp 2642040028144547 26, dn 5260046694957826 29, dp 9772815098569299 32, dn 17094949019810887 35, dp 28346465846379248 38, dn 4479840982384879 40],
   [dp 5066737460607982 21, dn 1202838061872534 23, dp 2590021175083282 26, dn 51441962801266954 30, dp 9536630717524136 32, dn 16647794931935291 35, dp 2755216425077334 37, dn 434643095503143 39],
   [dp 49951846893971575 22, dn 11823221437357826 24, dp 2539146779426349 26, dn 5031142870096847 29, dp 9306618421982303 32, dn 16213159495834164 35, dp 2678149708008667 37, dn 4217213194953473 40],
   [dp 4924850753313187 21, dn 1162208735187831 23, dp 24893892379719453 27, dn 4920813440904803 29, dp 9082605569915847 32, dn 15790670533657602 35, dp 2603372224502121 37, dn 40920494003171994 41],
   [dp 4855711767660882 21, dn 11424890094011429 24, dp 24407216675027655 27, dn 4813137009358166 29, dp 8864424647594739 32, dn 15379967544034968 35, dp 2530812211876586 37, dn 3970806038927528 40],
   [dp 4787744370959124 21, dn 1123154351801194 23, dp 2393117884682746 26, dn 47080445724660055 30, dp 8651913108824174 32, dn 1498070131746411 34, dp 2460400269397867 37, dn 38533541768835443 41],
   [dp 4720925712372079 21, dn 1104196354545842 23, dp 23465523865499678 27, dn 4605469048766461 29, dp 8444913219473153 32, dn 14592533564945122 35, dp 2392069277003199 37, dn 3739569313626244 40],
   [dp 4655233439467018 21, dn 10856068111584314 24, dp 23010003315870564 27, dn 4505345221489171 29, dp 8243271907112253 32, dn 1421513655938348 34, dp 2325754316939246 37, dn 3629331223131576 40],
   [dp 4590645686289658 21, dn 10673777113100827 24, dp 2256437521351037 26, dn 44076096834922736 30, dp 8046840615585044 32, dn 13848192789305156 35, dp 2261392598205104 37, dn 3522523801011645 40],
   [dp 4527141061748191 21, dn 10495012357467683 24, dp 22128403826451877 27, dn 4312200783915797 29, dp 7855475164343909 32, dn 13491394624443284 35, dp 21989233836960275 38, dn 34190349172963903 41],
   [dp 4464698638297464 21, dn 10319697513568967 24, dp 21701859502160157 27, dn 4219058576495253 29, dp 7669035612386997 32, dn 13144443992772406 35, dp 21382879199476207 38, dn 33187562746771273 41],
   [dp 4403297940914977 21, dn 10147758063752787 24, dp 21284518499590178 27, dn 412812476948117 28, dp 7487386126639001 32, dn 12807052068581897 35, dp 2079429369384064 37, dn 32215832720020297 41],
   [dp 434291893636067 20, dn 9979121257194641 24, dp 2087616282617441 26, dn 4039342677112159 29, dp 7310394854623887 32, dn 1247893897119548 34, dp 20222927449776865 38, dn 31274148728219744 41],
   [dp 4283542022712638 21, dn 9813716064545662 24, dp 2047658007958752 26, dn 395265717259088 28, dp 7137933801283281 32, dn 12159833473958147 35, dp 19668248472307154 38, dn 3036153478793159 40],
   [dp 4225148019171214 21, dn 9651473133828157 24, dp 20085563294140385 27, dn 3868014642514034 29, dp 6969878709799291 32, dn 11849472723125863 35, dp 19129742033934766 38, dn 29477048077505826 41],
   [dp 41677181561240125 22, dn 9492324747541925 24, dp 1970291079166039 26, dn 3785362942709131 29, dp 6806108946285592 32, dn 11547601966306866 35, dp 1860691008836581 37, dn 28619777762738337 41],
   [dp 41112340654648 19, dn 933620478094608 23, dp 1932842603671961 26, dn 3704651355432414 29, dp 6646507388215488 32, dn 11253974290116299 35, dp 18099270704977933 38, dn 27788843865736723 41],
   [dp 40556777711592345 22, dn 9183048661482083 24, dp 18961917496076957 27, dn 3625830547883864 29, dp 6490960316460189 32, dn 10968350366718393 35, dp 17606357523272978 38, dn 26983396175346856 41],
   [dp 4001031680050721 21, dn 9032793329304816 24, dp 18603198502204805 27, dn 3548852531996695 29, dp 6339357310815143 32, dn 10690498208942369 35, dp 17127719226579892 38, dn 26202613197557684 41],
   [dp 3947278572899843 21, dn 8885377198889546 24, dp 18252087120774633 27, dn 3473670625460196 29, dp 6191591148896488 32, dn 10420192933669694 35, dp 16662919034302015 38, dn 25445701144364173 41],
   [dp 3894401595650997 21, dn 8740740121683539 24, dp 17908406021980364 27, dn 3400239413936166 29, dp 60475577082939 30, dn 1015721653320153 34, dp 1621153421202974 37, dn 2471189295962803 40],
   [dp 3842384250920063 21, dn 8598823349772164 24, dp 17571982355582014 27, dn 33285147144305315 30, dp 5907155871870064 32, dn 9901357654325724 35, dp 15773155598865314 38, dn 2400044738053321 40],
   [dp 3791210389697111 21, dn 845956950053012 23, dp 17242647629555965 27, dn 32584535397830136 30, dp 5770287436100906 32, dn 9652411384813041 35, dp 15347387151331257 38, dn 23310648033288137 41],
   [dp 37408642032583077 22, dn 8322922522229415 24, dp 16920237592241857 27, dn 31900140642389865 30, dp 5636857022354388 32, dn 9410179047082178 35, dp 14933845503257713 38, dn 22641802561779433 41],
   [dp 36913302152813803 22, dn 8188827660576542 24, dp 1660459211787964 26, dn 3123155590068853 29, dp 55067719910092874 33, dn 9174467998782558 35, dp 14532159541066868 38, dn 219932417879326 39],
   [dp 3642593274159138 21, dn 805723142615213 23, dp 16295555095433728 27, dn 305783851520143 28, dp 5379942358318805 32, dn 8945091440053085 35, dp 14141969993894553 38, dn 21364318902583687 41],
   [dp 35946385455057064 22, dn 7928081562727201 24, dp 15992974320604445 27, dn 2994024301838965 29, dp 5256280715927187 32, dn 8721868227223796 35, dp 13762929038010226 38, dn 2075440868571256 40],
   [dp 3547451504850305 21, dn 7801327016430899 24, dp 156967013909302 25, dn 2931675446022479 29, dp 5135702152950732 32, dn 8504622692735813 35, dp 13394699915016862 38, dn 20162906754933342 41],
   [dp 3501017930513518 21, dn 7676917905745355 24, dp 15406591603886907 27, dn 2870755448117177 29, dp 5018124180537668 32, dn 8293184471063134 35, dp 13036956563331719 38, dn 19589228841180377 41],
   [dp 34553238966611813 22, dn 755480549230408 23, dp 15122503857894028 27, dn 28112287841886865 30, dp 49034666588243197 33, dn 8087388330427649 35, dp 1268938326246768 37, dn 19032810090569407 41],
   [dp 34103557665311183 22, dn 743494215247095 23, dp 14844300556139687 27, dn 27530608782418403 30, dp 4791651726207905 32, dn 7887074010106284 35, dp 12351674289652964 38, dn 18493104391453246 41],
   [dp 3366100185828121 21, dn 731728134967763 23, dp 14571847513139895 27, dn 26962180752946727 30, dp 4682603730859009 32, dn 769208606313644 34, dp 12023533588344167 38, dn 17969583725729222 41],
   [dp 3322544076282683 21, dn 7201777607497843 24, dp 1430501386394971 26, dn 26406676152612012 30, dp 45762491643994926 33, dn 7502273704232906 35, dp 1170467444820438 37, dn 17461737543492167 41],
   [dp 327967462936913 20, dn 7088386483437608 24, dp 14043671975946774 27, dn 25863776076174395 30, dp 4472516597674142 32, dn 7317490662736095 35, dp 11394819196134008 38, dn 1696907216016171 40],
   [dp 3237479300178911 21, dn 6977064543421187 24, dp 13787697363110104 27, dn 25333170068259372 30, dp 4371336618546834 32, dn 7137595040417991 35, dp 11093698897957348 38, dn 1649111017524634 40],
   [dp 31959458014449343 22, dn 6867769336953064 24, dp 13536968602719497 27, dn 24814555884949513 30, dp 4272641771654398 32, dn 6962449173978361 35, dp 10801053070382793 38, dn 16027389911938935 41],
   [dp 3155062097712956 21, dn 6760459372936891 24, dp 1329136725440327 26, dn 24307639262491502 30, dp 4176366500053642 32, dn 6791919502069842 35, dp 10516629402868661 38, dn 15577464876769478 41],
   [dp 31148163996561245 22, dn 665509409613289 23, dp 1305077778146427 26, dn 2381213369289508 29, dp 4082447088699239 32, dn 6625876436696257 35, dp 10240183489040378 38, dn 1514090323857048 40],
   [dp 3075197158528917 21, dn 65516338642357656 25, dp 12815087474416343 27, dn 23327760206207795 30, dp 3990821609692301 32, dn 6464194238834082 35, dp 9971478567317905 38, dn 14717287326039163 41],
   [dp 3036193060756782 21, dn 64500399255556956 25, dp 12584186376665556 27, dn 228542471592566 28, dp 390142986924154 31, dn 6306750898132359 35, dp 9710285270424846 38, dn 14306213143207986 41],
   [dp 2997793022657939 21, dn 63502743972855146 25, dp 1235796721227251 26, dn 22391330030654172 30, dp 38142133562808903 33, dn 6153428016551481 35, dp 9456381383462929 38, dn 13907289902161397 41],
   [dp 2959986185293848 21, dn 6252300244337674 24, dp 12136325315734078 27, dn 2193875122187446 29, dp 3729115192689419 32, dn 6004110695806272 35, dp 9209551610247175 38, dn 13520139572362105 41],
   [dp 2922761909444995 21, dn 6156081258735078 24, dp 11919158563724844 27, dn 214962598642083 28, dp 36460800850611454 33, dn 5858687428483536 35, dp 8969587347608333 38, dn 13144396445974383 41],
   [dp 2886109770708707 21, dn 6061582039540331 24, dp 11706367308740334 27, dn 21063611631416238 30, dp 35650542779742395 33, dn 5717049992708903 35, dp 8736286467379975 38, dn 127797067185954 39],
   [dp 28500195547158117 22, dn 5968767973308431 24, dp 11497854314585989 27, dn 2064056855790151 29, dp 3485985508710742 32, dn 5579093350242175 35, dp 850945310579803 37, dn 12425728084827938 41],
   [dp 28144812524630522 22, dn 5877605215048345 24, dp 11293524693657516 27, dn 20226898862231986 30, dp 3408822963379629 32, dn 5444715547884716 35, dp 828889746005056 37, dn 1208212934814946 40],
   [dp 27794850557582354 22, dn 578806066967935 23, dp 11093285845959963 27, dn 1982237677584545 29, dp 3333517234397653 32, dn 5313817622086498 35, dp 8074435591725177 38, dn 11748590044553177 41],
   [dp 2745021352775197 21, dn 5700101973968443 24, dp 10897047399814502 27, dn 19426782376777914 30, dp 32600202792839167 33, dn 5186303506644405 35, dp 7865889236910796 38, dn 11424800079456716 41],
   [dp 27110807237157287 22, dn 56136974789355076 25, dp 10704721154203458 27, dn 19039901428259896 30, dp 3188285380725646 32, dn 5062079943387219 35, dp 7663085622719271 38, dn 11110459377393067 41],
   [dp 2677653936575707 21, dn 5528816232713322 24, dp 10516221022705661 27, dn 18661525222030587 30, dp 311826710787406 31, dn 4941056395746383 35, dp 7465857290001104 38, dn 1080527754401687 40],
   [dp 26447319430127248 22, dn 5445427963849892 24, dp 10331462978975679 27, dn 18291450426224707 30, dp 3049921278830613 32, dn 4823144965115189 35, dp 7274041922037571 38, dn 10508973539976772 41],
   [dp 2612305874312616 21, dn 53635030650409134 25, dp 10150365003721906 27, dn 17929478937691517 30, dp 2983204924285247 32, dn 47082603099024586 36, dp 7087482178999639 38, dn 10221275366221559 41],
   [dp 25803670374523237 22, dn 52830125772805654 25, dp 9972847033139858 27, dn 17575417738609984 30, dp 2918076252269556 32, dn 45963195671900755 36, dp 6906025537971589 38, dn 9941919760324036 41],
   [dp 25489069112566358 22, dn 52039281744191534 25, dp 9798830908758401 27, dn 17229078757268447 30, dp 28544946139890284 33, dn 4487242276906903 35, dp 6729524138344695 38, dn 9670651903422319 41],
   [dp 25179171426463833 22, dn 5126222148116477 24, dp 9628240328657886 27, dn 1689027873288144 29, dp 2792420470699744 32, dn 4380950308434669 35, dp 6557834632393296 38, dn 9407225137393285 41],
   [dp 24873895429757596 22, dn 5049867393180086 24, dp 9461000800020437 27, dn 165588390843203 28, dp 27318153615960282 33, dn 42773677895643723 36, dp 6390818040852469 38, dn 9151400691887355 41],
   [dp 245731608445648 20, dn 4974837393277943 24, dp 929703959297388 26, dn 1623458578263823 29, dp 26726418726767343 33, dn 41764210377245707 36, dp 6228339613323006 38, dn 8902947420867725 41],
   [dp 24276888966665675 22, dn 4901106207015285 24, dp 9136285695691916 27, dn 15917349227274254 30, dp 26148636065588645 33, dn 4078038493405677 35, dp 6070268693335759 38, dn 8661641548310535 41],
   [dp 23985002631416106 22, dn 4828648454365771 24, dp 8978669770714346 27, dn 15606964125824226 30, dp 25584451532083096 33, dn 3982150655707015 35, dp 5916478587913409 38, dn 8427266422735305 41],
   [dp 23697426180463972 22, dn 4757439303447316 24, dp 8824124112452176 27, dn 15303269377270576 30, dp 25033520615584838 33, dn 3888690019935937 35, dp 5766846441473636 38, dn 8199612280247343 41]]

/-- src/error.rs:1261-4846, rows 192-255: `dp m e`, `dn m e` stand for the literals `±m·10^-e` -/
def cheb1Rows_3 : List (List (Int × Nat)) :=
  [[dp 930959226141268 20, dn 37223309597642537 24, dp 13756669077504875 26, dn 475517736515168 27, dp 15507996164970657 31, dn 4803721154859532 33, dp 14208059831259007 36, dn 4029648434210338 38],
   [dp 9089516331975589 21, dn 36141551317802566 24, dp 1329032320966631 25, dn 4573053689731379 28, dp 14851120757542015 31, dn 45820955456680356 34, dp 13502140296425027 36, dn 3815928580816023 38],
   [dp 8875820470581326 21, dn 35096382599837765 24, dp 12841801711434652 26, dn 4398629473542407 28, dp 14224496480975234 31, dn 43714624735407994 34, dp 12833599820912487 36, dn 361420563796824 37],
   [dp 866828935683038 20, dn 34086407814087884 24, dp 12410352483912718 26, dn 4231550771681088 28, dp 13626625449465447 31, dn 41712408190842345 34, dp 1220034342223635 35, dn 3423770801012859 38],
   [dp 8466715866393462 21, dn 33110290106669304 24, dp 1199525794000174 25, dn 4071481134977282 28, dp 13056088834490824 31, dn 3980881982387507 33, dp 11600399710726666 36, dn 3243959140246832 38],
   [dp 8270900726501584 21, dn 3216674870726717 23, dp 11595833301365512 26, dn 39181006880784015 29, dp 12511542447604715 31, dn 379986796739593 32, dp 11031913250043304 36, dn 30741467665410196 39],
   [dp 808065218718794 20, dn 3125455636955233 23, dp 11211424984988599 26, dn 37711052589644603 29, dp 11991712583046814 31, dn 3627709584523484 33, dp 10493137410533483 36, dn 2913748187428365 38],
   [dp 7895785707506902 21, dn 30372536937257243 24, dp 10841409074338135 26, dn 3630205556873469 28, dp 1149539210415922 30, dn 34639447638870502 34, dp 9982427682357793 36, dn 27622138403817664 39],
   [dp 7716123655996147 21, dn 2951956302933228 23, dp 10485189870431424 26, dn 3495126395802425 28, dp 11021436758623616 31, dn 33081369720554523 34, dp 94982354176128 34, dn 26190277909634023 39],
   [dp 7541495024686205 21, dn 2869455383796875 23, dp 10142198518386235 26, dn 3365605960923097 28, dp 10568761708497026 31, dn 31598737256814615 34, dp 9039101972814824 36, dn 24837055844134168 39],
   [dp 7371735155998048 21, dn 2789647303361824 23, dp 9811891705288491 26, dn 32413951154146503 29, dp 10136338261920842 31, dn 30187651958269627 34, dp 8603653225092512 36, dn 23557922400661638 39],
   [dp 7206685481903502 21, dn 2712432677146137 23, dp 9493750425454217 26, dn 31222567453675584 29, dp 9723190794215152 31, dn 28844428972030305 34, dp 8190594437276722 36, dn 22348603787417615 39],
   [dp 7046193274755688 21, dn 26377161794083783 24, dp 9187278809389867 26, dn 3007965140555982 28, dp 9328393846852272 31, dn 27565584569297625 34, dp 7798705448785535 36, dn 21205084739640966 39],
   [dp 6890111409227238 21, dn 25654063625404123 24, dp 8892003012968751 26, dn 2898305409009417 28, dp 8951069393533412 31, dn 26347824577774955 34, dp 742683617078966 35, dn 2012359218507955 38],
   [dp 6738298134822962 21, dn 2495415485116927 23, dp 8607470163541834 26, dn 27930729234396 26, dp 8590384263274234 31, dn 25188033511833106 34, dp 7073902365617955 36, dn 19100579983815636 39],
   [dp 6590616858460984 21, dn 2427659348158706 23, dp 8333247359889658 26, dn 2692072797695927 28, dp 8245547711042054 31, dn 24083264356462638 34, dp 67388816917327684 37, dn 1813271466910166 38],
   [dp 6446935936642196 21, dn 23620571391906996 24, dp 8068920723099278 26, dn 25951193915325125 29, dp 7915809127082415 31, dn 2303072896393195 33, dp 6420809996877672 36, dn 1721686212104624 38],
   [dp 6307128476752347 21, dn 2298531283698596 23, dp 7814094495616568 26, dn 25020358420729896 29, dp 7600455876628996 31, dn 22027789024757284 34, dp 6118777843183324 36, dn 1635007510979596 38],
   [dp 6171072147064206 21, dn 2237007303608968 23, dp 756839018588077 25, dn 24126536204556693 29, dp 7298811262210492 31, dn 21071947577095944 34, dp 5831927249116942 36, dn 1552958164931366 38],
   [dp 603864899502913 20, dn 21774136824382152 24, dp 7331445756095314 26, dn 23268121122321746 29, dp 701023260125406 30, dn 2016084102100946 33, dp 5559448634183427 36, dn 14752774106985755 39],
   [dp 5909745273468071 21, dn 21196817367745302 24, dp 7102914850827382 26, dn 22443582201774998 29, dp 6734109412139232 31, dn 19292231606221025 34, dp 5300577953237081 36, dn 1401719901812318 38],
   [dp 5784251274291659 21, dn 20637454937750534 24, dp 6882466064258786 26, dn 21651459882490283 29, dp 646986170228107 30, dn 18464000364022542 34, dp 5054594008147296 36, dn 13320547557975915 39],
   [dp 5662061169397569 21, dn 20095415743773022 24, dp 6669782244033314 26, dn 20890362455066894 29, dp 6216938352218771 31, dn 17674140455880772 34, dp 4820815925384392 36, dn 1266064662717948 38],
   [dp 5543072858410934 21, dn 19570090819399432 24, dp 6464559829760847 26, dn 20158962688764548 29, dp 597481559005768 30, dn 1692075091305968 33, dp 4598600788857368 36, dn 1203545050961336 38],
   [dp 5427187822950214 21, dn 1906089496043036 23, dp 6266508224347047 26, dn 19455994637051015 29, dp 5742995550960608 31, dn 16202030743225082 34, dp 438734141804777 35, dn 11443033064492837 39],
   [dp 5314310987116692 21, dn 18567265711921413 24, dp 6075349196419552 26, dn 1878025061115826 28, dp 552100491670988 30, dn 15516273381536932 34, dp 4186464282147119 36, dn 10881580417153941 39],
   [dp 52043505839206914 22, dn 18088662401841015 24, dp 5890816312217615 26, dn 18130578312322123 29, dp 5308393630666318 31, dn 14861861465171377 34, dp 39954275415226915 37, dn 10349384115440884 39],
   [dp 509721802737177 20, dn 17624565219050242 24, dp 5712654395402761 26, dn 17505878113923816 29, dp 5104733683736673 31, dn 14237261911556134 34, dp 3813719208411391 36, dn 9844834720880576 39],
   [dp 4992827789973528 21, dn 17174474333429793 24, dp 55406190133331805 27, dn 16905100485262247 29, dp 4909617967228168 31, dn 13641021281855402 34, dp 36408554192768704 37, dn 9366415805942243 39],
   [dp 4891097285376397 21, dn 16737909056092647 24, dp 5374475988424902 26, dn 1632724354916526 28, dp 4722659188719043 31, dn 13071761412410471 34, dp 3476378811763797 36, dn 8912698330643765 39],
   [dp 479194675595381 20, dn 1631440703772795 23, dp 5214000933298427 26, dn 15771350766098456 29, dp 4543488847308353 31, dn 12528175297935154 34, dp 3319856999647846 36, dn 8482335373591031 39],
   [dp 469529916507857 20, dn 15903523503222964 24, dp 50589788084807885 27, dn 15236508737853186 29, dp 4371756264827874 31, dn 12009023211286244 34, dp 31708811396129966 37, dn 807405719423258 38],
   [dp 4601080093887067 21, dn 15504830520805676 24, dp 49092035015001574 27, dn 1472184512429292 28, dp 42071276698047 29, dn 11513129045583512 34, dp 3029064584091265 36, dn 7686666604688277 39],
   [dp 4509217642329268 21, dn 15117916304040928 24, dp 47644774262734605 27, dn 14226526667010954 29, dp 40492853311560025 32, dn 1103937686534564 33, dp 28940416147762065 37, dn 7319034630976725 39],
   [dp 4419642334312149 21, dn 14742384545098693 24, dp 4624611141747152 26, dn 1374975731410354 28, dp 38979267387781517 32, dn 10586707654142221 34, dp 27654662517722587 37, dn 6970096444829115 39],
   [dp 4332287026753463 21, dn 14377853777793944 24, dp 4489422988807584 26, dn 1329077644059291 28, dp 37527638283619015 32, dn 10154116247041576 34, dp 26430111336690724 37, dn 6638847548545257 39],
   [dp 4247086822371542 21, dn 1402395676897407 23, dp 43587387445305004 27, dn 12848857159345138 29, dp 36135222479242574 32, dn 974064843686315 33, dp 2526366464135027 36, dn 63243401965269436 40],
   [dp 4163978986045118 21, dn 13680339936902299 24, dp 4232391292889257 26, dn 12423304717619904 29, dp 3479940663696701 31, dn 9345398243925082 34, dp 2415239020908712 36, dn 6025680038221284 39],
   [dp 4082902864585089 21, dn 13346662795354018 24, dp 41102203110886105 27, dn 12013454974663993 29, dp 33517701031492496 32, dn 896750533961551 33, dp 230935122333266 35, dn 5742022968228002 39],
   [dp 4003799809767625 21, dn 13022597422207807 24, dp 3992071970735502 26, dn 11618672956018852 29, dp 3228773333061028 31, dn 8606152614712917 34, dp 22084402548213873 37, dn 5472572170275305 39],
   [dp 3926613104485148 21, dn 12707827951374345 24, dp 3877798653100314 26, dn 11238351480455794 29, dp 31107242706710947 32, dn 8260563883939457 34, dp 2112257236887066 36, dn 52165753426539494 40],
   [dp 3851287891878496 21, dn 12402050086964494 24, dp 3767258677761805 26, dn 10871909855681371 29, dp 29974074260588183 32, dn 7930001718753925 34, dp 20205664515620274 37, dn 4973322093523187 39],
   [dp 37777711073199675 22, dn 12104970638652855 24, dp 3660316043966399 26, dn 10518792639170968 29, dp 28886173740115125 32, dn 7613765400880442 34, dp 1933144609258861 36, dn 4742141495269681 39],
   [dp 3706011413123105 21, dn 11816307077245267 24, dp 35568401840679115 27, dn 10178468460691553 29, dp 2784158253738885 31, dn 731118898952717 33, dp 18497801592971176 37, dn 4522399787815322 39],
   [dp 36359591358608215 22, dn 11535787109508024 24, dp 3456705728447206 26, dn 9850428903265602 29, dp 2683843294889423 31, dn 7021639495678509 34, dp 17702726405014212 37, dn 4313498221435826 39],
   [dp 35675662061790157 22, dn 11263148271363398 24, dp 335979228134287 25, dn 9534187439508098 29, dp 2587494368413657 31, dn 6744515157246101 34, dp 16944320694400375 37, dn 4114871030272477 39],
   [dp 35007861009980568 22, dn 10998137538600322 24, dp 32659842070537904 27, dn 9229278420438104 29, dp 24949415609035583 32, dn 6479243809240559 34, dp 1622078364026405 36, dn 3925983528297705 39],
   [dp 34355737879994926 22, dn 10740510954291114 24, dp 3175170426002729 26, dn 8935256114025958 29, dp 24060227711165895 32, dn 6225281343478568 34, dp 15530408003495225 37, dn 3746330320034199 39],
   [dp 33718856723000686 22, dn 1049003327214492 23, dp 30872442201765805 27, dn 8651693790887739 29, dp 23205833274673584 32, dn 5982110252670655 34, dp 14871575007331314 37, dn 3575433618829765 39],
   [dp 33096795452196594 22, dn 1024647761506623 23, dp 3002103047484209 26, dn 8378182854680365 29, dp 22384756253398124 32, dn 5749238254044741 34, dp 14242749511489146 37, dn 34128416659587316 40],
   [dp 32489145350539774 22, dn 10009625148222662 24, dp 29196483645965205 27, dn 8114332014884359 29, dp 21595587831386877 32, dn 552619698795111 33, dp 13642475462260893 37, dn 3258127244257692 39],
   [dp 3189551059767013 21, dn 97792647659601 22, dp 2839785457855927 26, dn 7859766499787377 29, dp 20836983160607426 32, dn 5312540787166755 34, dp 13069371602093165 37, dn 31108862804109464 40],
   [dp 31315507815220225 22, dn 9555192791935382 24, dp 27624232818636432 27, dn 7614127307600331 29, dp 20107658266244735 32, dn 5107845512872452 34, dp 1252212742319314 36, dn 2970736530381315 39],
   [dp 30748765629735745 22, dn 9337212691867385 24, dp 2687474305373349 26, dn 7377070493750042 29, dp 19406387110516636 32, dn 4911707453515474 34, dp 11999499350664073 37, dn 28373163428367663 40],
   [dp 3019492425246664 21, dn 912513479833613 23, dp 26148543641387983 27, dn 7148266492498 26, dp 18731998806455615 32, dn 4723742282995535 34, dp 11500307141569302 37, dn 2710283495754473 39],
   [dp 29653635075322568 22, dn 8918776047087152 24, dp 25444825203809437 27, dn 6927399471134519 29, dp 18083374973588657 32, dn 4543584074822381 34, dp 11023430487163069 37, dn 25893141016929494 40],
   [dp 2912456028231783 21, dn 8717959724324339 24, dp 24762809285571825 27, dn 6714166715091629 29, dp 17459447227902034 32, dn 4370884369091291 34, dp 10567805806311886 37, dn 2474101577511492 39],
   [dp 28607372475861507 22, dn 852251522449925 23, dp 24101747071314494 27, dn 6508278042406812 29, dp 16859194798906515 32, dn 4205311289308376 34, dp 10132423218865378 37, dn 23643556745855482 40],
   [dp 28101754317277086 22, dn 8332277818128373 24, dp 23460918160591344 27, dn 6309455246053457 29, dp 1628164226702144 31, dn 40465487062719077 35, dp 9716323688423915 37, dn 22598015658182415 40],
   [dp 27607398180963397 22, dn 8147088429192092 24, dp 22839629397152493 27, dn 611743156273298 28, dp 15725857414875864 32, dn 3894295446379464 34, dp 9318596324594898 37, dn 21601789859832902 40],
   [dp 271240058216349 20, dn 7966793421690315 24, dp 22237213750079388 27, dn 5931951166798217 29, dp 15190949186482205 32, dn 3748264541884397 34, dp 8938375835433249 37, dn 2065241422154096 39],
   [dp 26651288054104034 22, dn 7791244394949811 24, dp 21653029244323754 27, dn 575276868804822 28, dp 14676065748574393 32, dn 3608182520769355 34, dp 857484012132712 36, dn 1974755351178896 39],
   [dp 2618896444509233 21, dn 7620297987297421 24, dp 2108645793832354 26, dn 5579648752201093 29, dp 14180392648719432 32, dn 3473788734040169 34, dp 8227208002119636 37, dn 18884995213535783 40],
   [dp 2573676301657936 21, dn 7453815687731437 24, dp 20536904946484986 27, dn 5412365542914469 29, dp 13703151065109816 32, dn 33448347183707245 35, dp 789473706975386 36, dn 18062642756229153 40]]

/-- src/error.rs:1261-4846, rows 256-319: `dp m e`, `dn m e` stand for the literals `±m·10^-e` -/
def cheb1Rows_4 : List (List (Int × Nat)) :=
  [[dp 1003074601900355 20, dn 5769736718378944 23, dp 315891803258636 24, dn 16550121643970817 28, dp 833294546915526 29, dn 40461927798096115 33, dp 19003474613600625 35, dn 8653233213975795 37],
   [dp 9692012791258947 21, dn 55235122295769364 24, dp 29983053839272356 26, dn 15583322037425045 28, dp 7787192349236606 30, dn 3754255051559785 32, dp 1751266589556152 34, dn 7922617698610516 37],
   [dp 9367675167837227 21, dn 5289758604022454 23, dp 2847041289657462 25, dn 14679625866973535 28, dp 7280688869651056 30, dn 3485149033066093 32, dp 16147360460853466 35, dn 7257674032964906 37],
   [dp 905700683791529 20, dn 50677525833088895 24, dp 2704517639707415 25, dn 13834509469765002 28, dp 68103748399674754 31, dn 3236958301214598 32, dp 14896309099724796 35, dn 6652157900617664 37],
   [dp 8759323462177794 21, dn 4856817796279746 23, dp 25701697769464923 26, dn 13043800799444368 28, dp 6373446179632181 30, dn 3007937722789047 32, dp 13749329327241415 35, dn 6100449753965801 37],
   [dp 8473979961116623 21, dn 4656321419436391 23, dp 2443473130004957 25, dn 12303650085249495 28, dp 59673320911658775 31, dn 2796497255646497 32, dp 1269719893101175 34, dn 5597489326102122 37],
   [dp 8200367995853982 21, dn 44656710953400626 24, dp 2323940126250626 25, dn 11610503098893788 28, dp 55896743862568455 31, dn 2601187362210523 32, dp 11731560649178254 35, dn 5138717307114781 37],
   [dp 7937913626661539 21, dn 4284312087605262 23, dp 2211117360090371 25, dn 1096107678394602 27, dp 5238308751023276 30, dn 2420685867128905 32, dp 10844836763979856 35, dn 4720023369409866 37],
   [dp 768607513557444 20, dn 4111724652973334 23, dp 2104582994095605 25, dn 10352337026706489 28, dp 4911247758951919 30, dn 22537861092492178 33, dp 10030152534111406 35, dn 4337699822932009 37],
   [dp 7444341000617428 21, dn 3947421612669647 23, dp 2003944372550124 25, dn 9781478369345697 28, dp 4606665459839711 30, dn 20993862542985938 33, dp 9281267510780769 35, dn 39884002656687586 38],
   [dp 7212228010180744 21, dn 3790946106802914 23, dp 1908835828911641 25, dn 9245905485591801 28, dp 4322883390742747 30, dn 19564796490568174 33, dp 8592513889772288 35, dn 3669102669056091 37],
   [dp 6989279507014841 21, dn 3641869516976398 23, dp 18189166703863431 26, dn 8743216256768061 28, dp 4058357870713671 30, dn 18241461105988912 33, dp 7958741146698437 35, dn 3377076403146123 37],
   [dp 6775063752163832 21, dn 3499789543562077 23, dp 17338693243577461 26, dn 8271186301706565 28, dp 3811668455197109 30, dn 17015440555424556 33, dp 7375266286473871 35, dn 31098527637778797 38],
   [dp 6569172399934946 21, dn 33643284252528636 24, dp 16533976328039765 26, dn 7827754828190677 28, dp 3581507438541205 30, dn 1587903384332415 32, dp 6837829112203298 35, dn 28651986144869128 38],
   [dp 6371219075712175 21, dn 32351312895660874 24, dp 15772252820964692 26, dn 7411011686275913 28, dp 3366670304337898 30, dn 1482519044575431 32, dp 634255198429718 34, dn 2641092800353156 37],
   [dp 61808380490725454 22, dn 3111864623933656 23, dp 1505094356711476 25, dn 7019185515258112 28, dp 31660470333725535 31, dn 13847452054288149 33, dp 5885903598734561 35, dn 24357050301629445 38],
   [dp 5997682995258672 21, dn 299421485788997 22, dp 14367640064158044 26, dn 6650632886333453 28, dp 2978614187975169 30, dn 12939899821647609 33, dp 5464666364872128 35, dn 22473769578002667 38],
   [dp 582142583860627 20, dn 28818870476657904 24, dp 13720092174207025 26, dn 6303828352246719 28, dp 2803427699636083 30, dn 12097106563713916 33, dp 50759070088354647 36, dn 20746052242513368 38],
   [dp 5651755672024717 21, dn 27746036552224232 24, dp 1310619678842439 25, dn 5977355323558751 28, dp 2639616293981281 30, dn 11314093429046288 33, dp 47169500690094585 36, dn 1916026248501276 37],
   [dp 5488377747086495 21, dn 2672103414422395 23, dp 12523987365736108 26, dn 5669897698676573 28, dp 2486375493686788 30, dn 1058629059746976 32, dp 438535398607339 34, dn 1770402579355384 37],
   [dp 53310125297012445 22, dn 25741402776362243 24, dp 11971624273633198 26, dn 5380232181564734 28, dp 23429621457288086 31, dn 9909501614294155 33, dp 4078889521932944 35, dn 16366106412095432 38],
   [dp 5179394816735365 21, dn 2480482436635469 23, dp 11447385865340802 26, dn 5107221227169971 28, dp 2208689424587828 30, dn 9279871006913205 33, dp 37955202702527696 36, dn 15136297253565844 38],
   [dp 5033272909291813 21, dn 23909114121247604 24, dp 10949660233349384 26, dn 484980656011064 27, dp 208292226771432 29, dn 8693854866440618 33, dp 35333850464999 33, dn 14005320948388334 38],
   [dp 48924078386896 19, dn 23052212067244826 24, dp 1047693758449414 25, dn 4607003217168165 28, dp 19650732037776336 31, dn 8148194109142334 33, dp 32907819678319016 36, dn 129647408539641 36],
   [dp 4756572641481032 21, dn 22232175166350875 24, dp 10027803186485976 26, dn 4377894068623835 28, dp 18545985380082442 31, dn 7639890161140288 33, dp 3066154053122622 35, dn 12006880979397036 38],
   [dp 4625551680119173 21, dn 21447169975973975 24, dp 960093084008588 25, dn 4161624777558936 28, dp 17509948623516922 31, dn 7166182835564242 33, dp 2858076191193724 35, dn 11124753893889817 38],
   [dp 4499140006140528 21, dn 20695465811138543 24, dp 9195076835015322 26, dn 3957399159922757 28, dp 16537958612199832 31, dn 6724530194343654 33, dp 26652433411595402 36, dn 10311995788465157 38],
   [dp 4377142762960232 21, dn 19975428372165144 24, dp 8809074351245293 26, dn 37644749115101017 29, dp 15625693863885561 31, dn 63125902074530956 34, dp 24864598429148704 36, dn 956280795048289 37],
   [dp 425937462559096 20, dn 19285513803613127 24, dp 844182827053875 25, dn 3582159671012224 28, dp 14769147770757836 31, dn 5928204040911193 33, dp 23206297283932643 36, dn 887190399016273 37],
   [dp 4145659274793815 21, dn 18624263152971708 24, dp 8092310366065771 26, dn 34098073910437415 29, dp 13964604034855913 31, dn 5569380821414641 33, dp 21667479354677043 36, dn 8234462229154709 38],
   [dp 4035828903351036 21, dn 17990297200050597 24, dp 7759554840594186 26, dn 32468149915309124 29, dp 1320861414117412 30, dn 523428374036944 32, dp 20238923364073598 36, dn 7646082724153705 38],
   [dp 39297237523177615 22, dn 17382311630281686 24, dp 7442654186205586 26, dn 30926192720987126 29, dp 12497976689738094 31, dn 49212173734428774 34, dp 18912165017766122 36, dn 7102748454538313 38],
   [dp 3827191675264531 21, dn 16799072527216765 24, dp 7140755340718968 26, dn 2946694062137908 28, dp 1182971842444862 30, dn 4628616103763218 33, dp 17679431286840444 36, dn 6600790252826446 38],
   [dp 3728087728664697 21, dn 1623941216140875 23, dp 6853056118041907 26, dn 28085475890889527 29, dp 1120107681137751 30, dn 4355033547683197 33, dp 16533580694641396 36, dn 6136855101084786 38],
   [dp 36322737867124703 22, dn 157022250546109 22, dp 6578801891529839 26, dn 26777200471652077 29, dp 10609484032660612 31, dn 4099132891726143 33, dp 15468049032957416 36, dn 570787745592809 37],
   [dp 35396181789788512 22, dn 15186464299832968 24, dp 6317282511133942 26, dn 2553781350269989 28, dp 10052552274304459 31, dn 38596780580636905 34, dp 14476799990111173 36, dn 5311053299945535 38],
   [dp 34499953494249733 22, dn 146911381192677 22, dp 6067829436671964 26, dn 2436329054254977 28, dp 9528060197234598 31, dn 3635525623733115 33, dp 13554280225005958 36, dn 4943816648779145 38],
   [dp 33632855353961685 22, dn 14215306643456766 24, dp 5829813070977131 26, dn 2324986434934797 28, dp 9033940490880266 31, dn 34256174258808257 34, dp 12695378467349934 36, dn 4603818271081788 38],
   [dp 3279374465316079 21, dn 13758078896311863 24, dp 5602640277980328 26, dn 22194007094260072 29, dp 8568268417615838 31, dn 32289737916971656 34, dp 11895388265687959 36, dn 428890640357728 37],
   [dp 31981530738889395 22, dn 13318609971754189 24, dp 5385752071970502 26, dn 21192413894289918 29, dp 8129251264556816 31, dn 30446873374585485 34, dp 11149974042024567 36, dn 3997109265767692 38],
   [dp 31195172337003697 22, dn 12896098388791562 24, dp 5178621465367853 26, dn 20241987560281094 29, dp 7715218626620533 31, dn 28719172862803364 34, dp 10455140145175331 36, dn 3726619198778773 38],
   [dp 30433675021831438 22, dn 12489783612825232 24, dp 4980751463342542 26, dn 1933982446457521 28, dp 7324613451483985 31, dn 27098842588653572 34, dp 9807202624941304 36, dn 3475778270665916 38],
   [dp 2969608882984919 21, dn 12098943731874672 24, dp 4791673194526548 26, dn 18483201440753474 29, dp 6955983783170441 31, dn 2557865495759901 33, dp 920276347612152 35, dn 3243065206452399 38],
   [dp 28981506008402724 22, dn 11722893277234786 24, dp 4610944167905206 26, dn 17669563635142794 29, dp 6607975146532952 31, dn 2415190473447425 33, dp 8638687125581776 36, dn 3027083515444747 38],
   [dp 28289058891099904 22, dn 11360981178841837 24, dp 4438146646744537 26, dn 16896513236388851 29, dp 6279323519931067 31, dn 2281236880061194 33, dp 8112078957368886 36, dn 28265507011494717 39],
   [dp 27617917892067495 22, dn 11012588846327235 24, dp 4272886131116771 26, dn 16161799015444634 29, dp 5968848847965606 31, dn 21554269196175166 34, dp 7620265690452405 36, dn 26402884505632802 39],
   [dp 26967289611785015 22, dn 10677128367387038 24, dp 41147899412349474 27, dn 15463306613845976 29, dp 5675449050289177 31, dn 20372239164941036 34, dp 7160777441316887 36, dn 24672137098688558 39],
   [dp 26336415047692663 22, dn 10354040815693996 24, dp 3963505894403149 26, dn 14799049523193329 29, dp 5398094486286922 31, dn 19261291944329688 34, dp 6731331319519242 36, dn 23063305627683607 39],
   [dp 25724567903220065 22, dn 100427946611322 22, dp 3818701068936308 26, dn 1416716070337428 28, dp 5135822838858219 31, dn 18216792066607197 34, dp 63298164186478826 37, dn 21567228359403778 39],
   [dp 2513105298930019 21, dn 9742884275645716 24, dp 3680060648906764 26, dn 13565884791283012 29, dp 488773438365797 30, dn 172344289581484 32, dp 595428007803453 35, dn 20175473635141012 39],
   [dp 24555204712820987 22, dn 9453828528465242 24, dp 354728684403758 25, dn 1299357085565628 28, dp 4652987613004559 31, dn 16310192642640206 34, dp 5602915302219294 36, dn 1888027849107025 38],
   [dp 2399638564682803 21, dn 9175169464913882 24, dp 3420097879488487 26, dn 12448665657182569 29, dp 44307951862567205 32, dn 15440351371328924 34, dp 5274049235684075 36, dn 17674492699490916 39],
   [dp 2345398517762734 21, dn 890647106339767 23, dp 3298227050672337 26, dn 11929707376280663 29, dp 42204201808269475 32, dn 14621431019039277 34, dp 4966132599863242 36, dn 1655152772988473 38],
   [dp 22927418224249564 22, dn 8647318065560727 24, dp 3181421838600902 26, dn 11435319773912325 29, dp 40211726201560545 32, dn 13850196098872456 34, dp 4677730008017068 36, dn 1550531017705261 38],
   [dp 2241612402602758 21, dn 83973148749316 22, dp 3069443081591423 26, dn 10964206753515052 29, dp 383240625694121 30, dn 13123632261365465 34, dp 44075110813047175 37, dn 1453023924705924 38],
   [dp 21919564994310214 22, dn 8156084519708335 24, dp 29620641994717953 27, dn 10515147294636304 29, dp 36535155917056426 32, dn 12438930155589135 34, dp 4154242296402307 36, dn 13621147930838247 39],
   [dp 2143722562458669 21, dn 7923267675627421 24, dp 2859070466704844 26, dn 10086990731140221 29, dp 34839331084379523 32, dn 11793470540290504 34, dp 3916779501351654 36, dn 12773267530544265 39],
   [dp 2096861146553162 21, dn 7698521745137464 24, dp 27602583311127785 27, dn 9678652348959214 29, dp 33231267105267722 32, dn 11184810542848164 34, dp 369406104206323 35, dn 11982195235481588 39],
   [dp 2051324814169912 21, dn 7481519989354296 24, dp 26654347751234128 27, dn 9289109280292428 29, dp 3170597341585273 31, dn 1061067097259835 33, dp 3485101447092003 36, dn 11243864473051941 39],
   [dp 20070680426798843 22, dn 727195070951141 23, dp 2574416716681721 26, dn 8917396672925481 29, dp 30258767770113234 32, dn 10068924603087303 34, dp 32889856230107424 37, dn 10554517785966022 39],
   [dp 19640471364677376 22, dn 7069516474839908 24, dp 24870304471753028 27, dn 8562604114974744 29, dp 2888525573273588 31, dn 9557585345086242 34, dp 31048635169699393 37, dn 9910682010242074 39],
   [dp 19222201435305907 22, dn 687393339401651 23, dp 2403111103911706 26, dn 8223872296856807 29, dp 27581311629609987 32, dn 9074798238836212 34, dp 2931945206899785 36, dn 9309145549525562 39],
   [dp 18815467763241258 22, dn 6684930427508097 24, dp 2322502174860564 26, dn 7900389893660935 29, dp 26343060845915385 32, dn 8618830200031715 34, dp 27694963833164545 37, dn 8746937560236773 39],
   [dp 18419883366182124 22, dn 6502248738317648 24, dp 2245055033535306 26, dn 7591390652369387 29, dp 25166863370540215 32, dn 8188061459558955 34, dp 26168341898769904 37, dn 8221308879192993 39]]

/-- src/error.rs:1261-4846, rows 320-383: `dp m e`, `dn m e` stand for the literals `±m·10^-e` -/
def cheb1Rows_5 : List (List (Int × Nat)) :=
  [[dp 7138640930353988 21, dn 4991632616817315 23, dp 341520925126809 24, dn 2289112041725979 27, dp 15047354020107326 30, dn 9709915279009084 32, dp 6156807916276055 34, dn 383821295121939 35],
   [dp 684715989378477 20, dn 4727336896479283 23, dp 31950613251804464 26, dn 2116431876926672 27, dp 1375441291352181 29, dn 8778007165303583 32, dp 5506484108287153 34, dn 3397162459918477 36],
   [dp 6571021755668437 21, dn 4479982466178032 23, dp 2991431033455543 25, dn 1958512467509583 27, dp 12584943039507989 30, dn 7944057917248742 32, dp 4930541645524229 34, dn 30104931307196074 37],
   [dp 63092485290527175 22, dn 42483050361992275 24, dp 2802913721600567 25, dn 181395121890126 26, dp 11526027824590913 30, dn 7196915622659394 32, dp 4419850574139732 34, dn 26710625819997995 37],
   [dp 606093482237834 20, dn 4031147279389596 23, dp 26282375469464106 26, dn 16814915627861153 28, dp 10566214348148969 30, dn 6526791047989296 32, dp 39664748492262015 35, dn 2372721652214843 36],
   [dp 5825241729133978 21, dn 3827448767639847 23, dp 2466249717356536 25, dn 15600064863846424 28, dp 9695335295098086 30, dn 592508021999737 31, dp 3563507009068971 34, dn 21101689057679074 37],
   [dp 5601391289571209 21, dn 36362369461402855 24, dp 2315904274967925 25, dn 14484840563894367 28, dp 8904353989668868 30, dn 53842114714607244 33, dp 3204926968539352 34, dn 18788274931137683 37],
   [dp 5388661465767003 21, dn 345661902942916 22, dp 21762512386881125 26, dn 13460146800989217 28, dp 8185229341001378 30, dn 48975133965532587 33, dp 2885481240592918 34, dn 16747407761531126 37],
   [dp 5186381577852878 21, dn 3287774717174824 23, dp 20464269431123128 26, dn 12517798814926487 28, dp 7530797989870788 30, dn 4459100703278466 32, dp 26005794851399525 35, dn 14944837301175887 37],
   [dp 4993928154980896 21, dn 31289496397723595 24, dp 1925645432204807 25, dn 11650424001227568 28, dp 6934671334822874 30, dn 4063775405806758 32, dp 23462057765179745 35, dn 13350876290619224 37],
   [dp 4810721159666727 21, dn 29794494544350585 24, dp 1813190783977078 25, dn 10851374465208227 28, dp 6391145446389896 30, dn 3706941183044826 32, dp 21188423914360719 35, dn 11939759325183039 37],
   [dp 4636220548624952 21, dn 2838634521728022 23, dp 17084102578889243 26, dn 10114649699837991 28, dp 5895122159097061 30, dn 3384529053111867 32, dp 19154042625433499 35, dn 10689096310963272 37],
   [dp 4469923137166245 21, dn 27059151006028723 24, dp 1610708170136045 25, dn 9434828136516357 28, dp 5442039870366095 30, dn 30929327864409884 33, dp 17331825301795121 35, dn 9579405912760905 37],
   [dp 4311359737724577 21, dn 2580747007101797 23, dp 15195404136562596 26, dn 8807006481823447 28, dp 5027812779629662 30, dn 28289527111212736 33, dp 15697958658468264 35, dn 8593716745080875 37],
   [dp 4160092546181275 21, dn 24626276881373566 24, dp 14344095498321985 26, dn 8226745894565705 28, dp 4648777475399395 30, dn 25897467596294096 33, dp 14231484432942855 35, dn 7717226013164927 37],
   [dp 4015712752400471 21, dn 23510926672348222 24, dp 13548604077007455 26, dn 769002417932446 27, dp 4301645927224846 30, dn 23727877719173243 33, dp 12913936032645162 35, dn 6937006942150974 37],
   [dp 38778383538295655 22, dn 22457123239440303 24, dp 1280476134178145 25, dn 7193193278018715 28, dp 3983464067261271 30, dn 2175826210633961 32, dp 11729024012472003 35, dn 6241757694779214 37],
   [dp 37461121531858826 22, dn 21460889728722218 24, dp 1210874645528162 25, dn 6732941432084913 28, dp 3691575255748038 30, dn 1996857563998857 32, dp 10662363484211165 35, dn 5621585617539119 37],
   [dp 36201999231790385 22, dn 20518542120310726 24, dp 11457054361707731 26, dn 6306259466771408 28, dp 34235880187996247 31, dn 1834093813802604 32, dp 9701237580105491 35, dn 5067821609590116 37],
   [dp 34997887229357934 22, dn 19626665134933818 24, dp 10846467060637262 26, dn 5910410717461138 28, dp 3177347527818528 30, dn 16859384329402873 33, dp 8834391955719764 35, dn 4572860209367845 37],
   [dp 3384585352325126 21, dn 1878209032272447 23, dp 10274027723862074 26, dn 5542904177335866 28, dp 29509103594911303 31, dn 15509644510999627 33, dp 8051856047942247 35, dn 41300216662460344 38],
   [dp 32743149317474936 22, dn 1798187611917687 23, dp 97370173519655 24, dn 5201470497329065 28, dp 2742522135363961 30, dn 1427895190670544 32, dp 7344787423483486 35, dn 37334328302419236 38],
   [dp 3168719596172694 21, dn 1722328967604876 23, dp 9232933701965927 26, dn 4884040514250189 28, dp 2550597691809547 30, dn 13155873292350302 33, dp 6705336079220477 35, dn 3377924169151343 37],
   [dp 30675572933020736 22, dn 16503790295245165 24, dp 8759472247762351 26, dn 4588726022114693 28, dp 2373703475958879 30, dn 12130159915510478 33, dp 6126526002878812 35, dn 30589406242892713 38],
   [dp 2970600676707644 21, dn 15821014311686993 24, dp 8314508961867636 26, dn 4313802535865466 28, dp 2210541901905124 30, dn 11192616138510785 33, dp 5602151683153419 35, dn 2772464355325402 37],
   [dp 28776360856758244 22, dn 15172761287127152 24, dp 7896084730472003 26, dn 40576938264942273 29, dp 20599374350248635 31, dn 1033498357598927 32, dp 51266875827503924 36, dn 25149477116309006 38],
   [dp 2788462604268358 21, dn 14556981391065283 24, dp 7502391234645723 26, dn 38189580326435794 29, dp 19208242013469677 31, dn 9549838793451924 33, dp 4695208864639164 35, dn 22832550104929572 38],
   [dp 27028911928174306 22, dn 1397176385753927 23, dp 7131758148815763 26, dn 3596275176588414 28, dp 17922349441464235 31, dn 8830502887339324 33, dp 4303321898304243 35, dn 2074611908512863 37],
   [dp 26207438857049533 22, dn 13415326417820089 24, dp 6782641523839798 26, dn 33884359324869306 29, dp 16732911718819117 31, dn 8170961486198369 33, dp 3947103275093751 35, dn 1886561327329956 37],
   [dp 2541853049845159 21, dn 12886005619066342 24, dp 6453613236316154 26, dn 3194331512325423 28, dp 15631943606856306 31, dn 7565793901646174 33, dp 3623046235028858 35, dn 17169250433979524 38],
   [dp 2466060698801951 21, dn 12382247947946622 24, dp 6143351398439498 26, dn 30129445503755135 29, dp 14612180912406947 31, dn 7010110321218219 33, dp 33280135560085104 36, dn 15637701779756793 38],
   [dp 2393217857933964 21, dn 11902601686235026 24, dp 5850631633939235 26, dn 2843340880512622 28, dp 13667010143787988 31, dn 64994960765577864 34, dp 3059196083886516 35, dn 14253799312127616 38],
   [dp 23231839763764057 22, dn 11445709432535878 24, dp 55743191355948594 27, dn 26846621126481735 29, dp 12790405523849609 31, dn 602996214283734 32, dp 28140761915156075 36, dn 13002279960927293 38],
   [dp 22558263820442637 22, dn 11010301230693677 24, dp 53133614286619963 27, dn 2536118925011353 28, dp 11976872540530003 31, dn 55979011314563825 34, dp 25903955491719762 36, dn 118695616646201 36],
   [dp 21910197761806086 22, dn 1059518825117719 23, dp 5066781772397615 26, dn 23969849982578096 29, dp 11221397312066753 31, dn 520004813019867 32, dp 23861266700204488 36, dn 10843547204602515 38],
   [dp 2128645764280301 21, dn 10199256976866695 24, dp 48336731388588744 27, dn 22665915255376414 29, dp 10519401128693447 31, dn 483344582509059 32, dp 21994477643443275 36, dn 991345218091492 37],
   [dp 20685924204967344 22, dn 9821463849285833 24, dp 46131927143692944 27, dn 21443222398579872 29, dp 9866699606869049 31, dn 4495413407838811 33, dp 20287204967504178 36, dn 9069654008844973 38],
   [dp 20107538828903617 22, dn 9460830335462123 24, dp 44045568745874846 27, dn 20296089064438067 29, dp 9259465957202665 31, dn 4183518833359118 33, dp 1872470292834568 35, dn 8303559238066745 38],
   [dp 19550299771052715 22, dn 9116438379323947 24, dp 42070365890558125 27, dn 19219272334359745 29, dp 8694197924420833 31, dn 3895554044757604 33, dp 17293688870192546 36, dn 7607486858531715 38],
   [dp 19013258662664136 22, dn 8787426204891828 24, dp 4019953215517855 26, dn 18207931592575856 29, dp 8167688007993106 31, dn 362951282923637 32, dp 15982188424440653 36, dn 6974565569062404 38],
   [dp 18495517250773133 22, dn 8472984441538121 24, dp 38426746482346986 27, dn 17257594794049475 29, dp 76769966162631455 32, dn 338357100866796 32, dp 14779398077488562 36, dn 6398643252914419 38],
   [dp 17996224362681765 22, dn 8172352544307232 24, dp 3674611788054257 26, dn 16364127793469156 29, dp 7219427845888879 31, dn 31560687037900666 34, dp 136755630506129 34, dn 587420713576223 37],
   [dp 17514573076988593 22, dn 7884815484739722 24, dp 35152153051415497 27, dn 15523706437042046 29, dp 6792507612737618 31, dn 29454944417816687 34, dp 12661868691042501 36, dn 5396313300974768 38],
   [dp 17049798085617586 22, dn 7609700689855888 24, dp 33639726681027017 27, dn 14732791149809765 29, dp 6393963890684796 31, dn 27504709039689067 34, dp 11730343796042665 36, dn 496052440922652 37],
   [dp 16601173232576588 22, dn 73463752089527194 25, dp 32204054157675375 27, dn 13988103778797268 29, dp 6021708841527817 31, dn 25697421340705017 34, dp 10873774485640274 36, dn 4562854618309499 38],
   [dp 16168009216341261 22, dn 7094243089674422 24, dp 3084066650167382 26, dn 1328660647687104 28, dp 5673822642883992 31, dn 2402162048157651 33, dp 10085627408502246 36, dn 41997208277715054 39],
   [dp 157496514438231 20, dn 68527429464507104 25, dp 2954538731284332 26, dn 12625482434077272 29, dp 5348538841872798 31, dn 22466841057435567 34, dp 9359981212775321 36, dn 3867899484522079 38],
   [dp 1534547802484923 21, dn 6621345705876374 24, dp 2831431155981055 26, dn 12002118282760092 29, dp 50442310809180015 32, dn 21023520174547744 34, dp 8691465342285889 36, dn 3564488282224678 38],
   [dp 14954897896966514 22, dn 6399552514945792 24, dp 2714378605168379 26, dn 11414088020194269 29, dp 4759401058432958 31, dn 196829137884927 32, dp 8075205330865896 36, dn 32868721711886175 39],
   [dp 14577349071190546 22, dn 61868927992711455 25, dp 2603039144751219 26, dn 10859138308043354 29, dp 4492667601724936 31, dn 18437021323764777 34, dp 750677386585299 35, dn 3032693168347624 38],
   [dp 14212296990058895 22, dn 5982922459515425 24, dp 24970925672293718 27, dn 10335175021882513 29, dp 42427567423917684 32, dn 17278517704329518 34, dp 6982146977854786 36, dn 2799823520272029 38],
   [dp 13859232990023438 22, dn 57872221952722555 25, dp 23962388620338368 27, dn 9840250936489046 29, dp 40084926959797763 32, dn 16200692021361632 34, dp 6497664789261419 36, dn 25863418273026585 39],
   [dp 13517672860835126 22, dn 5599395946533891 24, dp 23001968037654515 27, dn 9372554443766137 29, dp 3788789657894697 31, dn 15197392149776827 34, dp 60499963201142704 37, dn 2390511784927356 38],
   [dp 13187155495140772 22, dn 5419069443715508 24, dp 22087026484830565 27, dn 8930399210169848 29, dp 35826443366556414 32, dn 14262974700639344 34, dp 5636107907983515 36, dn 22107632404007697 39],
   [dp 12867241622030428 22, dn 5245888857956149 24, dp 21215089290740108 27, dn 8512214689482989 29, dp 33891291536861585 32, dn 13392259763287086 34, dp 5253234849504495 36, dn 20456752991561056 39],
   [dp 1255751261874992 21, dn 5079519544101438 24, dp 2038383341540458 26, dn 8116537414834502 29, dp 320738604606056 30, dn 12580489950121064 34, dp 4898855916067596 36, dn 18939612474815132 39],
   [dp 12257569395229693 22, dn 4919644869397124 24, dp 19591077147589266 27, dn 7742003001098779 29, dp 3036620815068473 31, dn 11823293309376164 34, dp 4570670435624174 36, dn 17544550858435342 39],
   [dp 11967031346482123 22, dn 4765965121491192 24, dp 1883477056926407 26, dn 738733879531406 28, dp 2876097969214572 31, dn 11116649717631087 34, dp 4266577667336398 36, dn 16260994916618816 39],
   [dp 1168553536828775 21, dn 46181964898611324 25, dp 18112986724998828 27, dn 705135711861078 28, dp 27251360154115915 32, dn 10456860405030897 34, dp 398465822644745 35, dn 15079350517281807 39],
   [dp 1141273493192948 21, dn 4476070115256473 24, dp 17423913439745838 27, dn 673294904840879 28, dp 2583103156721815 31, dn 9840520302802966 34, dp 3723157343790218 36, dn 13990906232091863 39],
   [dp 1114829921404525 21, dn 4339331202179254 24, dp 1676584573334508 26, dn 6431078694388423 29, dp 2449413359115857 31, dn 9264492935186828 34, dp 348046976823146 35, dn 12987746986222684 39],
   [dp 10891912277956184 22, dn 4207738189820411 24, dp 16137178784519268 27, dn 614477792601901 28, dp 2323522753401306 31, dn 8725887606844827 34, dp 3255126141451249 36, dn 12062676646121595 39],
   [dp 10643272303091279 22, dn 40810619772315015 25, dp 15536401401151496 27, dn 5873141513288461 29, dp 22049263417750015 32, dn 8222038662590149 34, dp 30457806931220967 37, dn 112091485704826 37],
   [dp 10402090859372738 22, dn 3959085198842082 24, dp 14962089957296388 27, dn 561532264576226 28, dp 2093154981413194 31, dn 7750486619227529 34, dp 2851200121073107 36, dn 10421203261226719 39]]

/-- src/error.rs:1261-4846, rows 384-447: `dp m e`, `dn m e` stand for the literals `±m·10^-e` -/
def cheb1Rows_6 : List (List (Int × Nat)) :=
  [[dp 4021481444219559 21, dn 3027586430768197 23, dp 22635732134493037 26, dn 16808903971734079 28, dp 1239903650845787 29, dn 9086459269341193 32, dp 6617197348151865 34, dn 4787969243997167 36],
   [dp 3845127278725711 21, dn 28530307230711684 24, dp 21026763965331288 26, dn 15394475564563467 28, dp 11197929292635194 30, dn 8093616992454205 32, dp 5814198905394461 34, dn 4150548630264609 36],
   [dp 3678871337025515 21, dn 2690799665140694 23, dp 19552301247735543 26, dn 14116187373788476 28, dp 10127240044096646 30, dn 7220513623662063 32, dp 5117461039638744 34, dn 3604768918575171 36],
   [dp 35220053628339155 22, dn 2539869647961373 23, dp 18199480094936368 26, dn 12959349241452184 28, dp 9171336126317837 30, dn 6451399427228 29, dp 4511796387496062 34, dn 31365135006853506 37],
   [dp 3373879542946567 21, dn 2399314339115814 23, dp 16956816085529856 26, dn 11911021156017458 28, dp 8316628879368109 30, dn 5772762494970414 32, dp 39843437011127264 35, dn 27339805285540102 37],
   [dp 32338969881903933 22, dn 2268294315629371 23, dp 15814040911245407 26, dn 10959785776017406 28, dp 7551284886218935 30, dn 51729879631455397 33, dp 35241885570424466 35, dn 23872811115481352 37],
   [dp 31015087989516633 22, dn 2146047917077689 23, dp 14761960131275337 26, dn 10095552901263595 28, dp 68649809586777425 31, dn 4642072485211542 32, dp 31220495438763474 35, dn 20881109980718842 37],
   [dp 29762096468859486 22, dn 203188316221387 22, dp 13792329085961232 26, dn 9309391081501112 28, dp 6248695793407254 30, dn 4171384473689078 32, dp 2770018017417367 34, dn 18294816397662448 37],
   [dp 28575338131484242 22, dn 19251705941333755 24, dp 12897744463874143 26, dn 8593382323717922 28, dp 5694532452247609 30, dn 3753462340813073 32, dp 24613417860269347 35, dn 16054993659035076 37],
   [dp 27450516310114317 22, dn 18253369375162992 24, dp 12071549387202497 26, dn 7940496499637812 28, dp 51955668081714535 31, dn 3381844358196539 32, dp 21902449087120466 35, dn 14111836333478957 37],
   [dp 26383662872374786 22, dn 1731859467282253 23, dp 11307750192758957 26, dn 734448258770317 27, dp 47457179095970795 31, dn 305092488503142 31, dp 1951777249008579 34, dn 12423170920952822 37],
   [dp 25371109422002766 22, dn 1644261001490267 23, dp 10600943349604993 26, dn 6799774328129557 28, dp 4339636884301476 30, dn 27558326337637125 33, dp 1741688602771078 34, dn 10953216175763234 37],
   [dp 244094613362091 20, dn 15621054428712712 24, dp 9946251177318077 26, dn 6301408240891882 28, dp 39726115562334726 31, dn 24923273925134657 33, dp 15563231657722146 35, dn 9671555860141486 37],
   [dp 23495574330180752 22, dn 14849938032917671 24, dp 9339265217937345 26, dn 5844952267432745 28, dp 364048440543495 29, dn 2256712237301155 32, dp 13925308733899936 35, dn 8552285684777375 37],
   [dp 22626533276515235 22, dn 1412560653963641 23, dp 8775996275119126 26, dn 5426443557815431 28, dp 3339581880263456 30, dn 2045758770395981 32, dp 12475927658429067 35, dn 7573303399836575 37],
   [dp 2179963303943535 21, dn 13444709515460309 24, dp 8252830270575811 26, dn 504233414446066 27, dp 30666533861354458 31, dn 18566433346568987 33, dp 11191580371230577 35, dn 6715716789866612 37],
   [dp 2101236111160212 21, dn 1280417196606736 23, dp 7766489184251771 26, dn 4689443428478797 28, dp 28188185374193924 31, dn 16868924943327933 33, dp 10051908367727683 35, dn 5963348988623494 37],
   [dp 2026238186578539 21, dn 1220116886371117 23, dp 7313996444066446 26, dn 4364916560678568 28, dp 2593521478139142 30, dn 15343363539029793 33, dp 9039252291062481 35, dn 5302324293627741 37],
   [dp 19547522255043392 22, dn 11633102284109675 24, dp 689264621606339 25, dn 4066187931337258 28, dp 2388491260338852 30, dn 13970685190527866 33, dp 813826988888276 34, dn 47207207055459315 38],
   [dp 18865758813813697 22, dn 11097580860202916 24, dp 6499976118649217 26, dn 3790949094674607 28, dp 22017074224780855 31, dn 12734116965933817 33, dp 7335611374452962 35, dn 4208277887077567 37],
   [dp 18215205828778575 22, dn 1059240129579009 23, dp 6133742947135467 26, dn 3537120548930506 28, dp 2031370039123969 30, dn 11618880901876791 33, dp 6619643080053156 35, dn 3756151243227182 37],
   [dp 17594104562838677 22, dn 10115531712954622 24, dp 57919010485602527 27, dn 3302826873702305 28, dp 18758736216395137 31, dn 10611938819358873 33, dp 5980211812227688 35, dn 33567044598123444 38],
   [dp 17000813428268832 22, dn 9665096634089983 24, dp 5472583033069718 26, dn 30863747949951957 29, dp 17337843409517096 31, dn 970177200929561 32, dp 5408443573723259 35, dn 30033341716949843 38],
   [dp 16433799016361182 22, dn 9239363422799671 24, dp 51740825480813535 27, dn 28862338071498486 29, dp 16038201206399649 31, dn 8878190726584601 33, dp 48965713546136965 36, dn 26903215239954862 38],
   [dp 15891627900776046 22, dn 8836730028433271 24, dp 4894838875960245 26, dn 270101903099837 27, dp 14848332138458824 31, dn 8132169208045381 33, dp 4437787554567858 35, dn 24127062844994284 38],
   [dp 15372959140585637 22, dn 845571389693892 23, dp 4633423145800349 26, dn 2529476030570737 28, dp 13757949327998 28, dn 7455702580676633 33, dp 40261173114591964 36, dn 2166179900567932 37],
   [dp 14876537416753876 22, dn 8094941926405462 24, dp 4388525975781216 26, dn 23704673475260585 29, dp 12757822466900946 31, dn 6841682573618638 33, dp 3656309604541025 35, dn 1946994498868412 37],
   [dp 1440118674267122 21, dn 7753141359430418 24, dp 4158946385030492 26, dn 2222960544137574 28, dp 11839660034998726 31, dn 6283789407467425 33, dp 33237434944019765 36, dn 1751885325150188 37],
   [dp 13945804695464889 22, dn 7429131516536516 24, dp 394358183344409 25, dn 208601757289248 27, dp 10996005654118162 31, dn 5776397622573547 33, dp 3024347274163206 35, dn 1578004533494359 37],
   [dp 13509357120225847 22, dn 7121816285488009 24, dp 374141926490769 25, dn 1958785314230974 28, dp 10220146763614802 31, dn 5314493935579269 33, dp 27545286510266185 36, dn 14228645756784698 38],
   [dp 13090873264116136 22, dn 6830177290716639 24, dp 3551527044173699 26, dn 18404871441950858 29, dp 9506034050761583 31, dn 4893605490558185 33, dp 25111143659242323 36, dn 12842897242630625 38],
   [dp 12689441301614883 22, dn 655326767531804 23, dp 3373047690574834 26, dn 1730415411253614 28, dp 8848210281187793 31, dn 4509737105893382 33, dp 22912979011722045 36, dn 11603744980973622 38],
   [dp 1230420421599061 21, dn 6290206435362833 24, dp 3205191323053624 26, dn 16279247167101788 29, dp 8241747356078658 31, dn 4159316317253473 33, dp 20925941295309788 36, dn 10494479546035287 38],
   [dp 11934356005505787 22, dn 6040173252704101 24, dp 30472297408748515 27, dn 15324259062225266 29, dp 7682190578623295 31, dn 38391451863505296 34, dp 1912799929371332 35, dn 9500429763306834 38],
   [dp 11579138185914254 22, dn 5802403778159378 24, dp 2898491073052389 26, dn 1443380691347875 28, dp 7165509246084083 31, dn 35463579893008155 34, dp 1749959935075708 35, dn 8608698155134732 38],
   [dp 11237836563545059 22, dn 5576185321992113 24, dp 27583549371241506 27, dn 13602968299240163 29, dp 6688052799096197 31, dn 32783840212923465 34, dp 16023367137754637 36, dn 7807932743492063 38],
   [dp 10909778255713736 22, dn 5360852913093959 24, dp 262624805458749 25, dn 12827238027059443 29, dp 6246511859130627 31, dn 30329148591836494 34, dp 14683847626923665 36, dn 708812994219047 37],
   [dp 10594328937396442 22, dn 5155785692244306 24, dp 2501640276181713 26, dn 12102489311796562 29, dp 5837883570783518 31, dn 2807875513373343 33, dp 13467278087510943 36, dn 6440464072451035 38],
   [dp 10290890295071647 22, dn 4960403608357227 24, dp 23840409753775822 27, dn 11424938880194825 29, dp 5459440739651034 31, dn 2601398977104809 33, dp 12361389662818432 36, dn 5857139709696222 38],
   [dp 9998897670403291 22, dn 4774164389770995 24, dp 22729957729947974 27, dn 1079111557372211 28, dp 5108704320676879 31, dn 2411803747249891 33, dp 11355233716402517 36, dn 5331263636888689 38],
   [dp 9717817878030392 22, dn 4596560765437221 24, dp 2168083559894542 26, dn 10197832071512636 29, dp 478341886743329 30, dn 2237573947188495 33, dp 10439029671893773 36, dn 48567336582889886 39],
   [dp 9447147183160211 22, dn 4427117913365736 24, dp 20689137882521436 27, dn 9642159399025045 29, dp 4481530601019423 31, dn 20773417310485344 34, dp 9604031527810038 36, dn 44281419316791167 39],
   [dp 9186409425952566 22, dn 4265391115912376 24, dp 19751240050626027 27, dn 9121403926418069 29, dp 4201167799159032 31, dn 19298716904596415 34, dp 8842410618678588 36, dn 404069081897119 37],
   [dp 8935154280846703 22, dn 4110963603490948 24, dp 188637760431964 25, dn 8633086594337761 29, dp 39406232425275226 32, dn 1794047021091183 33, dp 8147152527028557 36, dn 3690119544718964 38],
   [dp 8692955640032749 22, dn 3963444570074459 24, dp 1802361776780746 26, dn 817492413441825 28, dp 3698338487084666 31, dn 16688572374263617 34, dp 7511966335997836 36, dn 33726401977221203 39],
   [dp 8459410111219067 22, dn 3822467345448275 24, dp 17227856384247006 27, dn 7744812077846035 29, dp 3472889758873648 31, dn 15533872511785278 34, dp 6931204656681501 36, dn 3084881819618233 38],
   [dp 8234135620705342 22, dn 3687687710609812 24, dp 16473785206573992 27, dn 7340809368279699 29, dp 32629752919180313 32, dn 14468076520857306 34, dp 6399793074046973 36, dn 28238415019056555 39],
   [dp 80167701135483 20, dn 35587823439941934 25, dp 15758884070556472 27, dn 6961124415645051 29, dp 30674039509763274 32, dn 1348366050037334 33, dp 5913167835412828 36, dn 2586841564091307 38],
   [dp 7806970343310965 22, dn 3435447387359233 24, dp 15080805029822673 27, dn 660410244518074 28, dp 28850849994034437 32, dn 12573793550287688 34, dp 54672207604901826 37, dn 23714920146799373 39],
   [dp 7604410744524705 22, dn 3317397121200303 24, dp 14437359257816102 27, dn 6268214011886095 29, dp 27150188885671965 32, dn 11732268866795102 34, dp 5058250485502816 36, dn 21756576069292287 39],
   [dp 7408782381572564 22, dn 32043627404989443 25, dp 13826505044918364 27, dn 5952044564478236 29, dp 2556288959475916 31, dn 10953442183031877 34, dp 46829192690561346 37, dn 19974288955551232 39],
   [dp 7219791968228533 22, dn 30960912224494777 25, dp 13246336791062494 27, dn 565428495532206 28, dp 2408053959748312 31, dn 10232176720593734 34, dp 4338214686862968 36, dn 18350967812957525 39],
   [dp 7037160952565605 22, dn 29923442785653897 25, dp 12695074903954569 27, dn 5373722803748959 29, dp 2269541290022393 31, dn 956379391776966 33, dp 40214156284046546 37, dn 1687130099461947 38],
   [dp 6860624662380532 22, dn 2892897384250637 24, dp 12171056521784301 27, dn 5109234629897321 29, dp 21400409035491353 32, dn 8944029288189532 34, dp 37300620830211796 37, dn 1552155868031206 38],
   [dp 6689931506679244 22, dn 27975388795379855 25, dp 11672726987152068 27, dn 4859778684837641 29, dp 201889979121588 30, dn 8368992840291402 34, dp 3461928267412645 36, dn 14289418619278687 39],
   [dp 6524842229127773 22, dn 27060691352540564 25, dp 111986320059724 25, dn 4624388410416677 29, dp 1905516991738632 31, dn 7835133555106015 34, dp 32149987024847626 37, dn 13163812240995037 39],
   [dp 6365129209702558 22, dn 26182997793749685 25, dp 10747410431422664 27, dn 440216646908123 28, dp 1799339073377233 31, dn 7339207478599826 34, dp 2987446896068675 36, dn 12134788618853127 39],
   [dp 6210575811074258 22, dn 2534052978792868 24, dp 10317787618669714 27, dn 41922792900218336 30, dp 16998560393716716 32, dn 6878249036306693 34, dp 27776163303037523 37, dn 1119339409856173 38],
   [dp 6060975766533375 22, dn 2453160772127039 24, dp 9908569301197198 27, dn 39939520833963595 30, dp 1606597614466478 31, dn 6449545223155366 34, dp 2584003489258332 36, dn 10331565685347249 39],
   [dp 5916132606516538 22, dn 23754644495880866 25, dp 9518635944133718 27, dn 3806464279229462 29, dp 15191298744657133 32, dn 6050612361079388 34, dp 24052426944209397 37, dn 9542036528126796 39],
   [dp 5775859121021435 22, dn 23008139762437066 25, dp 9146937534102571 27, dn 3629145351902504 29, dp 14370521848154336 32, dn 5679175151882152 34, dp 2240092543661024 36, dn 8818252050119332 39],
   [dp 5639976855408038 22, dn 22290674553432874 25, dp 8792488768825653 27, dn 3461370995008964 29, dp 1359994417806404 31, dn 5333147783532174 34, dp 20874237736813653 37, dn 8154295458469366 39],
   [dp 5508315637275817 22, dn 21600906286391095 25, dp 8454364613060763 27, dn 33025596148038423 30, dp 12876144211820935 32, dn 5010616875110466 34, dp 19462083873351213 37, dn 7544821524313792 39],
   [dp 5380713132282544 22, dn 2093756410896993 24, dp 813169619047124 26, dn 31521691135678724 30, dp 12195957137734315 32, dn 4709826069481336 34, dp 18155099058644736 37, dn 6984997662686235 39]]

/-- src/error.rs:1261-4846 `CHEBYSHEV_COEFFS_1`, as rows of 8 -/
def cheb1Rows : List (List (Int × Nat)) :=
  cheb1Rows_0 ++ cheb1Rows_1 ++ cheb1Rows_2 ++ cheb1Rows_3 ++ cheb1Rows_4 ++ cheb1Rows_5 ++ cheb1Rows_6

end Verif
