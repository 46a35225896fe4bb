/-! Generated by tools/gen_erfcx_err.py.  Error bounds (units `10^-46·2^-20`) at the left ends of the erfcx table rows; checked in
`Verif.Proofs.ErfcxCheck`. -/

namespace Verif

def erfcxErr_0 : List Nat :=
  [75150926697500522462426030931593134874,
   73644307386249418977077844537535925329,
   72579066172065817218613098708889018202,
   72492075055615408217169861411307380184,
   71890864306160996685422599573505852189,
   70878403041390067834519276786114920295,
   70609315142772845256345628520264229379,
   69881447323428475643982554528131241261,
   69481575464216731016607631168387947391,
   67872628679087216983492719253729857371,
   66643411733740408397501263032351952152,
   65861090108972138258805935226093462917,
   64944762750239641945486965644560464608,
   64887975065819569774157445729094883637,
   64429845307508081734322594194334322322,
   63980751599470757747540557562573378817,
   62835136418610566930333617212457545920,
   62249206794906373047467937942369758076,
   61997764219830771971628292349259357531,
   61621462467375957511264290712883773323,
   61477646293729331149363856404051052741,
   60835793646682304076355760300272819656,
   60307275585951543592376479610587156148,
   59970771403375320642343122368446539428,
   59567397030318131121136278462173903359,
   59408112985649607261092301515657206693,
   58464700753423960856632316929156673399,
   57785415166395248298345556046883661514,
   57066420119593893711319975333768110934,
   57023970522320064394826620699696862004,
   55908701670866468404969879807042850168,
   55375625616377088981444323189912284737,
   55188163518266438693938903805775484809,
   54919435272426877580122167655233605831,
   54906882431078424724427453893158048342,
   54223120732470068848345719885042608096,
   53584063188587387995999124776045480227,
   53437942330653559922363461464663016105,
   53401204180012898112615360775727347820,
   53300144226588569101782992144433800850,
   52931114521072169509983950884018788332,
   52092484390686838661412070735644249797,
   51829453513817886098167271636260105659,
   51251092117850287062484680767887244188,
   50948461527517071332179947825371561053,
   50330040220988177230631165889016723410,
   50158244254714953403439653545068062425,
   49469113408918970671773793626095308571,
   49155460358362920655572240775761691561,
   48793544092161754845979000566127973193,
   48043957686654810961904103431002931053,
   47961736502126162885368141832450101105,
   46941901737910588097638790531296333034,
   46496516445221539206388401504967432533,
   46285456668027845306211371945061204431,
   45918128575460967821373133764133190719,
   45574134699550514932368171560942271775,
   45055507735413065537571847182362923271,
   44840681014455307703047332048601429745,
   44649305834688990553414820329707118726,
   44296784705071601155266047098591715845,
   43544141906583732635574664149232455710,
   43242650641532661643584682129004095462,
   42894667415126658988627305584305674183]

def erfcxErr_1 : List Nat :=
  [42787146973956678609799515641042893608,
   42714405859235968803788216781596587118,
   42562311771743258230895613075168342348,
   42065073812466870857665487878845650625,
   41511670320082854347835184821631273143,
   41193810194099083119299815726183086621,
   41247814030945185235244130432012400917,
   40930854223835616242479826211157562980,
   40901798702611164474488484597754529178,
   40901561548879193560901812640714971683,
   40615894904584302561636936428855299759,
   40055071859472040477014769029892391750,
   39106605933100333052980223947379579359,
   38898779172072391657775948073066628865,
   38244855594770725960025770610498660911,
   38103226655130012913022440926099627906,
   38150234161425780864945939048158829646,
   38066847853564907832298079275727419790,
   37733445049061844214369216991593551959,
   37816277881859916987352790738499307927,
   37565498652366790185794025734001256457,
   37176935276299936100231639385380892491,
   36328869145566240381832251102141711239,
   35587987671787071714822689167335287177,
   35171535180039432266358879270983329785,
   35239991248022999206970643600163848444,
   34500703736422377523498684853218783722,
   33878333171600873034910979143133927416,
   33802167738725550199323633094712156760,
   33281186201747402594993938229212088408,
   32353123676343385786711425079441781784,
   32150259785248180442093109730802821611,
   31567097876153171645481237200190968127,
   30959678287399864086105148377418037963,
   31012542158634694247585191190617817032,
   30669986231013892760509772831559509160,
   30611263690077961927708779947671424483,
   30277678797312995317159643947830911754,
   29910860430928507107308023809991171015,
   29674479548984926157865915604360229996,
   29535417898746530435361880201039082913,
   29374876004646557548880601106895076837,
   28851735685675582567475709816887681008,
   28607061567913678396587507949470218528,
   28585549753064227765069401540808798703,
   27803786927016735636835418617195956331,
   27110464416779922353073060659787908336,
   26904190864645797750967694236985034089,
   26702916439962817752574932866095699267,
   26361760073543877393700221476314583947,
   26333274503748652860073028080480240425,
   26180044063964364755429998739175099977,
   25721388627695286470198480273074342703,
   25340755245310340005445482161431853354,
   25076463113883308342045502856905221947,
   24650953788534769074260516275861418860,
   23033682046366047448030034226611537839,
   22517683172950129873854020503239874600,
   21932643755572242215297170387023308219,
   21529293244002158306513791091727607126,
   20546066883269846474063592866043687529,
   19684412191131028712679563000691238622,
   19638156853876793110688485452830901995,
   19315248272678492943197268565319414319]

def erfcxErr_2 : List Nat :=
  [18769603294316882681185110592252760094,
   18081227852126971910739223376842218959,
   18129139531890891461919238235773843634,
   17692346302035083725070509873609505816,
   17796321515244504100548216295162455235,
   17859217998695669484258613851974736995,
   17364784937736910740264984063678368369,
   16481687715219234735717119196713547295,
   16470191314261436537237564874310173983,
   16118415992755606704919474417182338779,
   16008001201895183057985190768678755514,
   15873791972753351183119491075111107965,
   15308549840137490430612285765607968396,
   15354901641326140411336446979871287729,
   15018064895472271886950061853887700131,
   14686578693037308731478319537834323038,
   14293939783449408719619214384362226734,
   14385637717490564671523822409784084650,
   14482262430848993460443136117507281683,
   13795352829384640023073946540866502232,
   13196408540588251025023509129837437111,
   12589213227076783852167320605884862823,
   11963962689193036779174609797772115236,
   11624254258381104406399898427745044724,
   11277864907674894867000864365160794554,
   11371501760415648799795295309291520422,
   11016013048597204679176506198432026364,
   10698177434942524235014147915415567670,
   10538823021466355426595348690026283251,
   10379685377761646514790530059134095848,
   10458853297310461315229677776980420208,
   10037355937606147614959291980457381549,
   9421604442377585523227057207894623338,
   9183959879797843741941027705942356242,
   9090207482785104786643468526493844197,
   8788997072877612539336295295851935853,
   8775943055599832341804770078737723403,
   8521922599778102852852661787848437709,
   8355571073976465058170506125800710222,
   8317795026710354371275282265806793815,
   8412993639957061386866695417871249474,
   8286064590815721260801807783227925251,
   8240076098809721437697055685895068868,
   8291095582123093001486267473346412329,
   8363929542744202119693613667125518203,
   8296932282802971849474897494004639531,
   8010438456792126587119744409760455647,
   7676940320194426714301238352654484058,
   7723059737217355377531862323287465573,
   7800518229312395067514244064051554229,
   7690202609853175786254770429799656011,
   7791254423465390114986671256059340753,
   7566013946216507617513510627141590686,
   7088685703331563371830861679419942848,
   7029852402435820015137759488450651061,
   6980166223635493330647893880327307378,
   6810921763580001012819867990007219442,
   6845521695590516420891638689014184034,
   6734694188015162044419842591924876729,
   6452601080354584539829386950982276802,
   6068459052430785800897621422007144866,
   5898219185403446497026003806465084506,
   5736788959323449878406448521884542526,
   5541901494303934956564959021477564526]

def erfcxErr_3 : List Nat :=
  [5616848015908053382098737621724487460,
   5744839137986176592456993009668056523,
   5599778710202381372989255426859686260,
   5587502992677439723309273758790042283,
   5516623503892951954058165123586100805,
   5531537000641356341244959307314796071,
   5626833574320158963274414758080644863,
   5746991789150730811443194464187776436,
   5814786534611640559118035381880894607,
   5809985449002972867093316877472049323,
   5764330023590299385607343942103043280,
   5304753633531032801529348811435678399,
   5251678687840043466312216575314132363,
   4970385194052351706208148280708512795,
   4661182050144528608622997042619464817,
   4824390601423630961347941306034712858,
   4577984076473294525613233807943775197,
   4686205803602250604517970678576721438,
   4451005279718581993736988077414222803,
   4602618634005003677361355282212403164,
   4454654831359671499847609068098699875,
   4489571906296521212495440915515076896,
   4436334079930287608547633112636043241,
   4346345700391847652544072151173454247,
   4193655232598258222988261355184156027,
   3899389200274397840552826591594643238,
   4021753517785713654537652396459741172,
   4151118689367761766466738220565642820,
   4112297225219601298561493706376734772,
   3882339911846523751377466037127285536,
   3478257182979354876547381868505274401,
   3369429177173532694994280652589487502,
   3389881904519596655656484384774671123,
   3418694339498920748156496468583985460,
   3309239647422360109688202523854560939,
   3421739933985258314446895213389245632,
   3498126240739608811853028625904061032,
   3530894099051792826806465653383153870,
   3622265062003251758736189433425727169,
   3492755273053517642133527260871692517,
   3326540638854618567185696653734159399,
   3468666771639101441749235887917700247,
   3354707058965069209270112553761116934,
   3079560776911979671154309917797776579,
   2951830061502911955980237916076868855,
   3082634121051712749466121299514964690,
   2901373282558614539771262033143992343,
   3011480761774405132058028897869622789,
   2711536440598578224419321402879223834,
   2499136484768805426130269075554556197,
   2500831821788391902718980462350018173,
   2506489189223230948025508307390989403,
   2472276581653894312133270098177198033,
   2494819494371269803395938779963828682,
   2601585206063847506293057825854448735,
   2269005951103967868997606226757312101,
   1909786853974721847863537258303418934,
   1938832985986259139512931665515087870,
   1856793609545145612594794000152315983,
   1792212007554100321690287082944207930,
   1703408557138383967253522689558236093,
   1779544551807454006756715209010462847,
   1390896260039090923305395581775242674,
   1218857733028012705401089898111824801]

def erfcxErr_4 : List Nat :=
  [1071048445454808633168834060644532643,
   773284386809341184269360081737447399,
   714242214060357222327521944819093501,
   782680628907711287676559771167667168,
   795009229068926112295157337374342038,
   845077391219760043649470352831651470,
   794738947778334083657427929741416659,
   791708402025525253624329903473389069,
   733574052854251551028826806477973675,
   776327951255429866241698854417139869,
   779468549867913853076698871732100377,
   709249939455424211714923443279056388,
   801456672329851522665972042165714116,
   911117145223005348593258703497114760,
   908801509799789673844439830105369435,
   796081644054619713231357797244571584,
   653754495762716447400795087415164242,
   667219300461692086965286878776337525,
   596385021948295063221822262687805314,
   670280718856429502540350903249805193,
   758670159177374865890365090685271469,
   704050920785734004508059504234696154,
   653690642306935812644552133427013577,
   740195731214046673164684738631382081,
   753667489095617692874959194243581166,
   760820126478604684366277433692325175,
   818409373982602505455316703027214048,
   865413573446999915101875365149016530,
   794159534528692467471376777662952101,
   790867530824697772477202459183700283,
   790482449103764797292205738347911174,
   849154434719523917925074796089078372,
   848059849256588705205346713900224825,
   714614850284750746971438427956810167,
   581988965928253657825973887618116790,
   414539915613826628165806535669649023,
   415731960348908483738055189222637456,
   491901612346900573961783737088409065,
   456075745559620542375178215330740158,
   413286537002864342907951207192069974,
   442487607073564562567951278852185681,
   442909041015556616363322852089789984,
   495005342825382055716618460838760380,
   492636565225589957252339431174947841,
   532823271268364088461696365692656616,
   619956619045158482176594306108073105,
   608543798643069767356275506243920771,
   608268569567625707344170829237579452,
   623373209831780611021393121807872633,
   642324616175700840459741619063860271,
   701784750695660829669123083668680858,
   710021405450985846711769169438180776,
   751955326341709178240927637249489134,
   842037026711786906277601732559577970,
   840825930099919815532823552218465492,
   883461062272937860714467183749028305,
   742654513026739010055488324621076903,
   600981226347144535732572894801154572,
   656639873539273476045301289732912932,
   663639617445474711376052573817838389,
   607414901825227368586690529837727140,
   486193989381340767690408629463346337,
   454784157483201393979092012043131425,
   514997576003933798752045942284881669]

def erfcxErr_5 : List Nat :=
  [571511916462433128542021233650589506,
   677746870875684724981157200919831874,
   736876939822924604997763361328027090,
   579676440593592772252261687642978663,
   394309055847147145104528831985955692,
   407510004958864895705352163728439792,
   232866254706728561742633964377866084,
   232830002058121499764279373570362637,
   227161840746020264938613872900682391,
   199647688299986032025248412848334526,
   236330576827181915543489788913589117,
   199453626630657511229647244117201532,
   201855518237499787714053325764457122,
   182337227754436003761110508740870948,
   248994309309715403737136139080070154,
   253569606257867475584269405875269428,
   214293609949842871579042844180612548,
   195352937338812489683848465903575907,
   245545998653333504381185220303118378,
   226529063006494079737906526826612644,
   219430102859201504953652902086160735,
   177798340378177173528713817728977782,
   213711843913806146784516019665130909,
   245319757769847611339210500879457655,
   258504707801976752238023746815024411,
   179462048997392068535186923411349881,
   248559093547528010463503922215379679,
   271305373594677287056618867719222342,
   244981783582267662814080905440385188,
   237035593633113446945440957362538546,
   260699810610569132023931904485955374,
   222179985234015508890248142444727114,
   240882618556902787789767058271847734,
   152096699966931249072704833547107938,
   175640896651847039096829722475569062,
   148150338709426715401084769849346815,
   176663754801792498239422675711925002,
   207326637038526156991541728338866116,
   261434804779268288534907421232576355,
   219851217940891539855447024241475388,
   199911894337536996537755829899230876,
   214896486774186957746485912802899832,
   180733148195374979869740215945914927,
   188357637375118972309645324994664456,
   218062721352996278661384982308152181,
   226931626618909451995096088377796802,
   281888248983119000394953803792240159,
   273073804678103398888968567622259982,
   247747298375558226165969960424463013,
   114631549857800848307938073553776208,
   141690368202323412689845574012788704,
   165843204724873868515395957641416099,
   95448455874060266339410329994412656,
   115916802905985243727511952433389799,
   179216749750862303355870673618728090,
   247494811839594907323002955399816204,
   319812643329223020315294348032613363,
   291055010379446623988704118660190786,
   291370242621767729010476829734668758,
   223423046994656060146416354311675966,
   168510295710250855063808814507082072,
   158817800273077325057946007702486117,
   176052803496098482100480121042033051,
   226139334800874408348084502105604777]

def erfcxErr_6 : List Nat :=
  [181860960733050740159861191924859535,
   156526666942215295215823006898404534,
   313251773149801382928649924143576313,
   165829305103430577732751731754445836,
   180162614423203919829260355923980021,
   326079790765241186759326517323749752,
   78952334744581812886924749136268742,
   142514415474287489563333557077110814,
   180844134128142865568315837671280289,
   143827017078379524099559567395274691,
   174581086656480350433091480756296246,
   224373618365213811265876776392048441,
   196074104956679533976545755692037730,
   123460293857215675423559916893315428,
   68969672911817184407245290619313728,
   93267549592713521521271006169817716,
   196216849824517428858194054122958603,
   298662500113457817493859831526026337,
   134427111665814902275312649943874663,
   256519075234173817001054483580426526,
   136587827524840968051582370673101991,
   150773697227901917111737450631761935,
   233016295330384619858761354738500853,
   42134038507065454428469625766010970,
   51700407166858304596418005919947213,
   114467304787350326725106777542301222,
   136942495211692266733223075980924951,
   165238393781921242624297507739478326,
   255147317022699045763616545932049162,
   26685190377814104343781907216878769,
   92061645377843729333571491366196422,
   284708864763495409868278789006995228,
   224852837360673974654643069549746610,
   80747856701854416840173322560701228,
   181486464145424858177009867537837781,
   181336404887750600023167850852744697,
   70500377806955731384626020697997738,
   57085021887689961393878188952646882,
   190976983540479073525128846336823709,
   599380170353161515796074657459462150,
   1482584242257259280865282063519910038,
   5317715840787798901959477807002116252,
   22426779927167228360554990320042218267,
   96567527221178147416034035389332725934,
   420155441988172048214355941452892352118,
   1844095229235507165691046958216645483517,
   8153795371786324343072877488281029247423,
   36309732541323405605983882367945458367429,
   162825368665648921001572882830195734866435,
   735257998261508915083315185643591255256245,
   3343125979036995822957333970227029908743238,
   15305247939373545203499710991999664180965134,
   70547626262992007830572518590753584884136164,
   327385077468380167020230009774392123652944385,
   1529502158720795389850842601437288454211099545,
   7193439840156203762567393640029024283931577543,
   34056441742927111531529709529491955114638562427,
   162300230180804561213625599494678170229679399065,
   778533916648398770586263239433674243587533367389,
   3758859066317563461823984335116251935316579539421,
   18265705775386023702689911437414645772885563699371,
   89330717307747185440386100696968214221723099967234,
   439674624249068028941398889818592931126368662651227,
   2177763373233664699299998962100385820119674302194358]

def erfcxErr_7 : List Nat :=
  [10485760000000000000000000000000000000000000000000000]

def erfcxErr : List Nat :=
  erfcxErr_0 ++ erfcxErr_1 ++ erfcxErr_2 ++ erfcxErr_3 ++ erfcxErr_4 ++ erfcxErr_5 ++ erfcxErr_6 ++ erfcxErr_7

end Verif
