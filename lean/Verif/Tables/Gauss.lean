import Mathlib.Data.Nat.Notation
import Mathlib.Data.Int.Notation

/-!
# Tables of the symplectic methods

Transcription of SymplecticRK/sage/generated_coeffs.hpp (tables `la`, `lb`) and
SymplecticRK/sage/generated_coeffs_co.hpp (table `lc`), decimal literals as integers with a common
power of ten.  `c` (row sums of `la`, same power of ten as `la`) is not in the source; the sums are
checked in `Lemmas/Gauss.lean`.
-/

namespace Odes.Symp

/-- a pair of specializations `icoeffs<s,Double>`, `extrapcoeffs<s,Double>`: digits after the decimal
point and integers. -/
structure GTab where
  s : ℕ
  da : ℕ
  rows : List (List ℤ)
  db : ℕ
  b : List ℕ
  c : List ℕ
  dq : ℕ
  q : List (List ℤ)

/-- `icoeffs<2,double>`, generated_coeffs.hpp line 1; `extrapcoeffs<2,double>`, generated_coeffs_co.hpp
line 1. -/
def gaussD2 : GTab where
  s := 2
  da := 13
  rows := [
    [2500000000000, -386751345948],
    [5386751345950, 2500000000000]]
  db := 1
  b := [
    5, 5]
  c := [
    2113248654052, 7886751345950]
  dq := 11
  q := [
    [-144337567297, 265470053838],
    [-176853598869, 250218995347]]

/-- `icoeffs<3,double>`, generated_coeffs.hpp line 12; `extrapcoeffs<3,double>`, generated_coeffs_co.hpp
line 7. -/
def gaussD3 : GTab where
  s := 3
  da := 14
  rows := [
    [13888888888900, -3597666752490, 978944401531],
    [30026319498100, 22222222222200, -2248541720310],
    [26798833376200, 48042111196900, 13888888888900]]
  db := 307
  b := [
    2777777777777777777777777777777777777777777777777777777777777777777777777777777777777777777777777777777777777777777777777777777777777777777777777777777777777777777777777777777777777777777777777777777777777777777777777777777777777777777777777777777777777777777777777777777777777777777777777777777777777777778,
    4444444444444444444444444444444444444444444444444444444444444444444444444444444444444444444444444444444444444444444444444444444444444444444444444444444444444444444444444444444444444444444444444444444444444444444444444444444444444444444444444444444444444444444444444444444444444444444444444444444444444444444,
    2777777777777777777777777777777777777777777777777777777777777777777777777777777777777777777777777777777777777777777777777777777777777777777777777777777777777777777777777777777777777777777777777777777777777777777777777777777777777777777777777777777777777777777777777777777777777777777777777777777777777777778]
  c := [
    11270166537941, 49999999999990, 88729833462000]
  dq := 11
  q := [
    [100000000000, -332379000772, 343649167310],
    [164959666924, -478568501159, 375514084041],
    [294601792214, -774471701777, 525791292600]]

/-- `icoeffs<4,double>`, generated_coeffs.hpp line 24; `extrapcoeffs<4,double>`, generated_coeffs_co.hpp
line 13. -/
def gaussD4 : GTab where
  s := 4
  da := 14
  rows := [
    [8696371128440, -2660418008500, 1262746268940, -355514968580],
    [18811811750000, 16303628871600, -2788042860250, 673550059454],
    [16719192197400, 35395300603400, 16303628871600, -1419069493110],
    [17748257225500, 31344511474200, 35267675751600, 8696371128440]]
  db := 307
  b := [
    1739274225687269286865319746109997036176743479169467702462646597593759337329551758609918838661290797548990519523817510772122211251629908904285121491608348124296432385221819599013166869759217993363234069631440146323419871999946106394206210691233975331271719538471006793957704766095937512965786146277614280411,
    3260725774312730713134680253890002963823256520830532297537353402406240662670448241390081161338709202451009480476182489227877788748370091095714878508391651875703567614778180400986833130240782006636765930368559853676580128000053893605793789308766024668728280461528993206042295233904062487034213853722385719588,
    3260725774312730713134680253890002963823256520830532297537353402406240662670448241390081161338709202451009480476182489227877788748370091095714878508391651875703567614778180400986833130240782006636765930368559853676580128000053893605793789308766024668728280461528993206042295233904062487034213853722385719589,
    1739274225687269286865319746109997036176743479169467702462646597593759337329551758609918838661290797548990519523817510772122211251629908904285121491608348124296432385221819599013166869759217993363234069631440146323419871999946106394206210691233975331271719538471006793957704766095937512965786146277614280411]
  c := [
    6943184420300, 33000947820804, 66999052179290, 93056815579740]
  dq := 12
  q := [
    [-135307244905, 1361400684650, -3975449681980, 3818788086430],
    [-537612925376, 3004041356710, -6498905908660, 4604319712030],
    [-1637170318420, 6847575756890, -11924979686400, 7122271778350],
    [-4100298787220, 14775159637000, -22336564686500, 11988707378100]]

/-- `icoeffs<5,double>`, generated_coeffs.hpp line 37; `extrapcoeffs<5,double>`, generated_coeffs_co.hpp
line 19. -/
def gaussD5 : GTab where
  s := 5
  da := 14
  rows := [
    [5923172126400, -1957036435910, 1125440081860, 158811296787, -559379366081],
    [12815100567000, 11965716762500, -2459211461960, -276899439877, 1031828067070],
    [11377628800400, 26000465168100, 14222222222200, 468715452387, -2069031643100],
    [11687532956000, 24490812891000, 27319004362600, 5923172126400, 25888469960900],
    [12123243692700, 22899605457900, 30903655906400, -968756314195, 11965716762500]]
  db := 307
  b := [
    1184634425280945437571320203599586813216300011062070077914139441108586442015215492899967152469757223880545673040716627906313826942511840667659767896400087242787267677997923561060269100106932615429966725346009416978348146320955363536457524959211020974511812831134713995185082911486960583374788694003121486989,
    2393143352496832340206457574178190964561477766715707699863638336669191335762562284877810625308020553897232104737061149871463950835265937110118009881377690534990510099779854216717508677670845162347811052431768360799429631456822414241320252818566756803265964946643063782592694866290817194402989083774656290784,
    2844444444444444444444444444444444444444444444444444444444444444444444444444444444444444444444444444444444444444444444444444444444444444444444444444444444444444444444444444444444444444444444444444444444444444444444444444444444444444444444444444444444444444444444444444444444444444444444444444444444444444446,
    1184634425280945437571320203599586813216300011062070077914139441108586442015215492899967152469757223880545673040716627906313826942511840667659767896400087242787267677997923561060269100106932615429966725346009416978348146320955363536457524959211020974511812831134713995185082911486960583374788694003121486989,
    2393143352496832340206457574178190964561477766715707699863638336669191335762562284877810625308020553897232104737061149871463950835265937110118009881377690534990510099779854216717508677670845162347811052431768360799429631456822414241320252818566756803265964946643063782592694866290817194402989083774656290788]
  c := [
    4691007703056, 23076534494733, 49999999999987, 95308992296900, 76923465505305]
  dq := 11
  q := [
    [-1240808924500, 3324949633440, -3822379393770, -502873063466, 2345802756000],
    [-2298021168690, 6113049529230, -6978213216070, -1160805060140, 4378790951140],
    [-4217258070550, 11147371623500, -12639216297700, -2251246289220, 7998596871450],
    [-7708539069010, 20275133284500, -22875741348600, -4216412298990, 14555590967000],
    [-14065217946900, 36857435500600, -41448318298400, -7806384465660, 26487637463600]]

/-- `icoeffs<6,double>`, generated_coeffs.hpp line 51; `extrapcoeffs<6,double>`, generated_coeffs_co.hpp
line 25. -/
def gaussD6 : GTab where
  s := 6
  da := 15
  rows := [
    [42831123094800, -14763725997200, 9325050706480, -5668858049480, 2854433315100, -812780171265],
    [92673491430400, 90190393262000, -20300102293200, 10363156240200, -4887192928040, 1355561055490],
    [82247922612800, 196032162333000, 116978483643000, -20482527745700, 7989991899660,
    -2075625784870],
    [87737871974500, 172390794624000, 254439495032000, 116978483643000, -15651375809200,
    3414323576740],
    [84306685134100, 185267979452000, 223593811046000, 254257069580000, 90190393262000,
    -7011245240790],
    [86475026360800, 177526353209000, 239625825336000, 224631916580000, 195144512521000,
    42831123094800]]
  db := 308
  b := [
    8566224618958517252014807108636644676341125074202199119931771989947288027117007732396385271319433487605826103493720215459587358373108798731482461465901572422603356755458416054218589970338344360633462427849702407971466367851249202671691209118162205918730519560261955952209532993378216817826634236399948461046,
    18038078652406930378491675691885805583076094637337274114486962011857001891863085916048110099440967397155860457018539929493994513918216053538839360570429094610572513612628788855630003661844142958158014475559002587040684277353724123624305059162996572490860820121279338876919088319415021654678284651663242138830,
    23395696728634552369493517199477549740582780288460526765581265998195710081019906351555504629239599115238313439487739855046418127708675147729678177963669332966824129631912795090151406367817512681208523096591295004987849354795026673704003731718841221590408660318458705170871378687206761527495081111936809399980,
    23395696728634552369493517199477549740582780288460526765581265998195710081019906351555504629239599115238313439487739855046418127708675147729678177963669332966824129631912795090151406367817512681208523096591295004987849354795026673704003731718841221590408660318458705170871378687206761527495081111936809399930,
    18038078652406930378491675691885805583076094637337274114486962011857001891863085916048110099440967397155860457018539929493994513918216053538839360570429094610572513612628788855630003661844142958158014475559002587040684277353724123624305059162996572490860820121279338876919088319415021654678284651663242138920,
    8566224618958517252014807108636644676341125074202199119931771989947288027117007732396385271319433487605826103493720215459587358373108798731482461465901572422603356755458416054218589970338344360633462427849702407971466367851249202671691209118162205918730519560261955952209532993378216817826634236399948461044]
  c := [
    33765242898435, 169395306766850, 380690406957890, 619309593041040, 830604693233310,
    966234757101600]
  dq := 12
  q := [
    [1496399067440, -4951809352080, 8167371885790, -7440126821610, 1317730614310, 2444199849050],
    [3468858051250, -10978074798200, 16559516123600, -13675488760500, 2903113112100, 2256411560570],
    [7115118358670, -21645634934600, 30255592494200, -22341624011300, 3473558413170, 3511241179490],
    [13535159887300, -39661723180300, 51470491880400, -33042720378700, 857972597258, 7126333394790],
    [24234287613500, -68298636147000, 81508471648200, -42120564201500, -11045005701100,
    15957570513700],
    [40959317278600, -110308373491000, 117679699401000, -37719802331300, -46786406984800,
    36378979878900]]

/-- `icoeffs<7,double>`, generated_coeffs.hpp line 66; `extrapcoeffs<7,double>`, generated_coeffs_co.hpp
line 31. -/
def gaussD7 : GTab where
  s := 7
  da := 15
  rows := [
    [32371241542200, -11451017283200, 7633203872420, -5133733563230, 3175058773690,
    -1606819037050, 458109523749],
    [70043541378700, 69926347872300, -16590006578800, 9349622783440, -5397091931900,
    2645843866730, -743850190172],
    [62153935787300, 152005522058000, 95457512626300, -18375244215500, 8712562598480,
    -3953580158810, 1076715615630],
    [66332928617700, 133595769224000, 207701880766000, 104489795918000, -16786855513400,
    6256926520760, -1590445533250],
    [63665767468800, 143806275903000, 182202462654000, 227354836052000, 95457512626300,
    -12152826313200, 2588547297080],
    [65486333274600, 137206851878000, 196312117184000, 199629969053000, 207505031831000,
    69926347872300, -5301058294290],
    [64284373560700, 141459514782000, 187739966479000, 214113325400000, 183281821380000,
    151303713028000, 32371241542200]]
  db := 308
  b := [
    6474248308443484663530571633954100916429370112997333198860431936232761748602115435781270908146042254474220100081721394053267244690945223132481735399963051892701205815645879446846948686831625869354268147689681310258033921680931826682680405544866030630933618429798268329896388687424464087706025693979688590650,
    13985269574463833395073388571188979124346253261329938226850701634680940521528133840662047145059880938316168760668602575956781848978155997218567632890616842727817960126684545963215974167512466741339546398214311510540780103108464024448338141541070836003691827769948310599862513750047102309416201989155641328960,
    19091502525255947247518488774448756693918254176693136737554172551535277321706485417434232967202240072515733588229267866724644783881919187812215937831869084971317568751547125610345240410962029838285777290830701056752206383373869454991430432505899868059252104820661584335547220011508025439612466194415690489300,
    20897959183673469387755102040816326530612244897959183673469387755102040816326530612244897959183673469387755102040816326530612244897959183673469387755102040816326530612244897959183673469387755102040816326530612244897959183673469387755102040816326530612244897959183673469387755102040816326530612244897959183610,
    19091502525255947247518488774448756693918254176693136737554172551535277321706485417434232967202240072515733588229267866724644783881919187812215937831869084971317568751547125610345240410962029838285777290830701056752206383373869454991430432505899868059252104820661584335547220011508025439612466194415690489140,
    13985269574463833395073388571188979124346253261329938226850701634680940521528133840662047145059880938316168760668602575956781848978155997218567632890616842727817960126684545963215974167512466741339546398214311510540780103108464024448338141541070836003691827769948310599862513750047102309416201989155641328770,
    6474248308443484663530571633954100916429370112997333198860431936232761748602115435781270908146042254474220100081721394053267244690945223132481735399963051892701205815645879446846948686831625869354268147689681310258033921680931826682680405544866030630933618429798268329896388687424464087706025693979688590471]
  c := [
    25446043828579, 129234407200298, 297077424311400, 499999999999810, 702922575687980,
    870765592798610, 974553956171900]
  dq := 12
  q := [
    [-1911201878410, 6656527591910, -12729216864900, 18117620264900, -17461673379100,
    7960986716280, 392403593092],
    [-5198658357270, 17786325987600, -32509339334800, 42618349871400, -37964237256500,
    18168228316200, -2374899432260],
    [-12692458212300, 42522246348200, -74518286234000, 91724185108400, -76786948259900,
    36477922393100, -6367228772940],
    [-28801621391700, 94584557949300, -159757941566000, 186855037157000, -148584647226000,
    69027658294800, -13046609339500],
    [-61849646748900, 199450073684000, -326127694831000, 365115860088000, -277225297295000,
    124642877080000, -23779397557200],
    [-127150589514000, 403254742675000, -640329586138000, 688994905272000, -500006854823000,
    214902196978000, -39471027006100],
    [-252155218350000, 787350624132000, -1216367420450000, 1259723961090000, -871096011391000,
    351306654630000, -58592259464200]]

/-- `icoeffs<8,double>`, generated_coeffs.hpp line 82; `extrapcoeffs<8,double>`, generated_coeffs_co.hpp
line 37. -/
def gaussD8 : GTab where
  s := 8
  da := 15
  rows := [
    [25307134072600, -9105943305970, 6280831147030, -4483015613050, 3078491368330, -1917675254640,
    972757664059, -277508327117],
    [54759321767600, 55595258613300, -13639796235800, 8149708858360, -5215352089150,
    3139752985460, -1564934910950, 442802304342],
    [48587535998900, 120859524997000, 78426661469500, -15975103361900, 8371732720230,
    -4643465862100, 2225714775280, -618805695251],
    [51865520970600, 106193490148000, 170671134275000, 90670945844600, -16021041321000,
    7241206561220, -3197814310360, 859236584265],
    [49755031560900, 114388331537000, 149612116378000, 197362933010000, 90670945844600,
    -13817811335600, 4997027078340, -1251252825390],
    [51233073840400, 108964802451000, 161496788801000, 172970158969000, 197316995051000,
    78426661469500, -9669007770490, 2026732146280],
    [50171465840800, 112755452138000, 153713569953000, 186557243778000, 173192182831000,
    170493119175000, 55595258613300, -4145053622370],
    [50891776472300, 110217759563000, 158770998194000, 178263400321000, 185824907302000,
    150572491792000, 120296460533000, 25307134072600]]
  db := 308
  b := [
    5061426814518812957626567715498109505769704552584247852950184903237008938173539243014136965202250327907719466570663335385774701544617438393659865205680367923452666044120253659881532878646027339807178897337762461643650275129964770449733384052554053647341832332928873251786613012628524848232621159535553923686,
    11119051722668723527217799721312044221506543502562478236295464464680840728522452042682657118859896392107963305060610906155571878992628612096909133372660452889543066447684202013946993244380021928486010787410316266235977951143157853256599827948667727203029764099403358083227951680417359561778496762849422445130,
    15685332293894364366898110099330065663016449950136746884513197253747813597108674848084903811696427802471378732053890430812362341613278080284453121382348794973112515593882812797316436110107602158132338973608019113006476384493262548615925789991765780312098758684862802119928548170665432495070562586077212719980,
    18134189168918099148257522463859780609707301994716527026241153378334336736195333866218302104241425477512938496314835327646291077849475869224977880039310384213891751914312731528855037766866348573574471341643902159113895389233614827677740998007012438837529644882804966545056887136288683094918319491537810910840,
    18134189168918099148257522463859780609707301994716527026241153378334336736195333866218302104241425477512938496314835327646291077849475869224977880039310384213891751914312731528855037766866348573574471341643902159113895389233614827677740998007012438837529644882804966545056887136288683094918319491537810909830,
    15685332293894364366898110099330065663016449950136746884513197253747813597108674848084903811696427802471378732053890430812362341613278080284453121382348794973112515593882812797316436110107602158132338973608019113006476384493262548615925789991765780312098758684862802119928548170665432495070562586077212719460,
    11119051722668723527217799721312044221506543502562478236295464464680840728522452042682657118859896392107963305060610906155571878992628612096909133372660452889543066447684202013946993244380021928486010787410316266235977951143157853256599827948667727203029764099403358083227951680417359561778496762849422445310,
    5061426814518812957626567715498109505769704552584247852950184903237008938173539243014136965202250327907719466570663335385774701544617438393659865205680367923452666044120253659881532878646027339807178897337762461643650275129964770449733384052554053647341832332928873251786613012628524848232621159535553923785]
  c := [
    19855071751242, 101666761293162, 237233795041659, 408282678752325, 591717321247850,
    762766204957690, 898333238706730, 980144928249900]
  dq := 11
  q := [
    [189420696335, -674595407993, 1361743138790, -2213255314900, 3013546960180, -3005356028460,
    1678135646470, -247654183242],
    [553044980217, -1971238025510, 3945523068420, -6182028074780, 7791625497780, -7191708657160,
    4056055066140, -949268636734],
    [1536365886800, -5412300233300, 10551141808600, -15782974227500, 18658323952500,
    -16250835836900, 9065001509750, -2329364336120],
    [4003126263500, -13896309171800, 26331089832500, -37748515722600, 42396191965400,
    -35332079978000, 19447204137200, -5173661898900],
    [9830826100190, -33641004508800, 62100261650100, -85838310495000, 92500618174300,
    -74449692414400, 40438195944500, -10918828517800],
    [22968525606000, -77580507980800, 139949183211000, -187532610048000, 195309767699000,
    -152759865051000, 81907348082400, -22243088140500],
    [51501954266800, -171944701492000, 303971234666000, -396604428446000, 401290466143000,
    -306261683487000, 162113250704000, -44049698874500],
    [111620019082000, -368802824601000, 640457927459000, -816393419172000, 805510446748000,
    -601438469251000, 314179531687000, -85118582849500]]

/-- `icoeffs<9,double>`, generated_coeffs.hpp line 99; `extrapcoeffs<9,double>`, generated_coeffs_co.hpp
line 43. -/
def gaussD9 : GTab where
  s := 9
  da := 15
  rows := [
    [20318597090400, -7397868566150, 5222003592100, -3873451291740, 2831369450070, 1226609788810,
    -622964091649, 177778462745, -1962194188390],
    [43965527226500, 45162040173700, -11335464012300, 7034766801730, -4788276131020,
    -1964405739950, 987172103666, -280274237641, 3203360151980],
    [39008653396300, 98181511959800, 65152674100700, -13770833986600, 7664175624640,
    2770828892760, -1361671983070, 382532112918, -4713586467800],
    [41645087027300, 86255472772500, 141795216041000, 78086769260000, -14618957875900,
    -3932839915040, 1852686200820, -510573474929, 7300428262180],
    [39940372869800, 92943372272700, 124257110411000, 170000445255000, 82559838750300,
    6048237790690, -2619291925290, 696821310952, -13826906735300],
    [40254662067900, 91685752330500, 127534519309000, 160887124988000, 157455501876000,
    65152674100700, -7857431612420, 1628540784500, 169944372507000],
    [40917468418400, 89336908243800, 132269753941000, 152970178368000, 169907953632000,
    141640812214000, 45162040173700, -3328333045740, 149138771718000],
    [40459415718000, 90947044439100, 129078738413000, 158135732708000, 162288308051000,
    125083344609000, 97721948913600, 20318597090400, 160046989812000],
    [41147767655700, 88471394146600, 134238188117000, 148873110258000, 179738635377000,
    -11489867839700, 4068607574920, -1007892846540, 78086769260000]]
  db := 308
  b := [
    4063719418078720598594607905526182533783086039120537535555383844034334315422603147278927735147128847889703665898151904729502439754697787976407068942237542688366698617478375366227906396906693415083369757862294840130561736984781583600166733738331829648764956763754215572385368484367608685041062300929274958263,
    9032408034742870202923601562145640475716891086602024224916795323567864527247313488229748865159985207380373398012889686133981342303150636158950504023727886874064869824341393527781852161444302385742696151645127705510991092406069950287067474000326174379041199841004356361185802976382450506817270969271951353767,
    13030534820146773115937143470931642488592010221864997596999850105980540783444562232382304654750870091369369276781882525665920191191791343535146493413515808835354264134122411868483669835624673656375618794710163726589464724897262081654003441959642881191153840622368326560969933777484486547828898741111911885990,
    15617353852000142003431520329222183279937743063095232277700558279957194866200965828506096094400317692614773865908234865581959090494376357298001854507392029427862945453788229920298206778611884082732807611227110124846331904013725638678968951460681226144103746788998070011379781635033279909090797719097544602370,
    16511967750062988158226253464348702443940539178634416729654824892920131015369110607205845301083396321491559586797682035777273872511967750062988158226253464348702443940539178634416729654824892920131015369110607205845301083396321491559586797682035777273872511967750062988158226253464348702443940539178634419120,
    13030534820146773115937143470931642488592010221864997596999850105980540783444562232382304654750870091369369276781882525665920191191791343535146493413515808835354264134122411868483669835624673656375618794710163726589464724897262081654003441959642881191153840622368326560969933777484486547828898741111911888320,
    9032408034742870202923601562145640475716891086602024224916795323567864527247313488229748865159985207380373398012889686133981342303150636158950504023727886874064869824341393527781852161444302385742696151645127705510991092406069950287067474000326174379041199841004356361185802976382450506817270969271951353150,
    4063719418078720598594607905526182533783086039120537535555383844034334315422603147278927735147128847889703665898151904729502439754697787976407068942237542688366698617478375366227906396906693415083369757862294840130561736984781583600166733738331829648764956763754215572385368484367608685041062300929274958472,
    15617353852000142003431520329222183279937743063095232277700558279957194866200965828506096094400317692614773865908234865581959090494376357298001854507392029427862945453788229920298206778611884082732807611227110124846331904013725638678968951460681226144103746788998070011379781635033279909090797719097544591230]
  c := [
    15919880246196, 81984446336665, 193314283649648, 337873288297931, 499999999999852,
    806685716351180, 918015553663160, 984080119754100, 662126711702980]
  dq := 8
  q := [
    [-112237853338, 347268754318, -550445857588, 652015683125, -643197481547, -395350621673,
    220696334712, -66040380391, 547393014370],
    [-191477786610, 593253450524, -942891945106, 1121607485060, -1112587989970, -691200810877,
    387170671922, -116248089934, 952426619653],
    [-327483030101, 1016387962490, -1620769508090, 1937630291530, -1934065499670, -1215101365690,
    682903899734, -205508098275, 1666040298880],
    [-561952492914, 1747769695390, -2798087811120, 3364374208900, -3381243791630, -2149174424290,
    1211871088680, -365413234968, 2931883392360],
    [-968302778742, 3019109848130, -4855586204930, 5875876212010, -5948854006320, -3826286258500,
    2164571952900, -653868878770, 5193361757710],
    [-1676827750950, 5243305306070, -8476294362200, 10329465242400, -10538628458600,
    -6859213137210, 3892488913610, -1177823312950, 9263545883140],
    [-2920722239890, 9162422198390, -14896058624800, 18288659042600, -18807135730000,
    -12383809109000, 7048402371890, -2136087471910, 16644345518500],
    [-5121023171560, 16121851022500, -26370327424300, 32628440845400, -33821033880700,
    -22519349124600, 12852237126100, -3900486336620, 30129705127300],
    [-9044726280190, 28582420650200, -47050585656400, 58677744285800, -61299030567500,
    -41244387827700, 23597135958500, -7170372253790, 54951814499400]]

/-- `icoeffs<10,double>`, generated_coeffs.hpp line 117; `extrapcoeffs<10,double>`, generated_coeffs_co.hpp
line 49. -/
def gaussD10 : GTab where
  s := 10
  da := 15
  rows := [
    [16667836077200, -6120680292340, 4392003730290, -3345350508830, 2547568970280, -1882620386940,
    1310814627700, -820986353138, 417243835668, -119093958462],
    [36066152578200, 37362837287600, -9531373591890, 6072284461740, -4304045812960, 3068518610870,
    -2094113957450, 1296249655500, -654328115142, 186135539000],
    [31999117977500, 81227570111900, 54771590629000, -11877612891500, 6878146397710,
    -4502743296860, 2940873331410, -1776133746570, 884246091931, -249838753970],
    [34163992179100, 71355369074600, 119207290549000, 67316679827500, -13096519547200,
    6948865983840, -4148453527230, 2392814241770, -1162297951330, 324562105530],
    [32760931291300, 76902299703600, 104444079563000, 146566245550000, 73881056178700,
    -13112209169600, 6331455054820, -3338100797680, 1551799168850, -424726034358],
    [33760398188700, 73173875406400, 112881282056000, 128301904600000, 160874321527000,
    73881056178700, -11932885895400, 5099101694900, -2176625128360, 574740863060],
    [33011110048800, 75887972526600, 107150367016000, 138781813182000, 140813246374000,
    160858631905000, 67316679827500, -9664109290770, 3370305500650, -828320024765],
    [33585510908300, 73841428483400, 111319315005000, 131692486324000, 152264855654000,
    140883965960000, 146510972547000, 54771590629000, -6501895536570, 1336554176830],
    [33149536615300, 75380002690400, 108246931602000, 136727473612000, 144693593747000,
    152066158170000, 128561075193000, 119074554850000, 37362837287600, -2730480423850],
    [33454766112800, 74308430739600, 110364167611000, 133322545027000, 149644732744000,
    145214543387000, 137978710164000, 105151177528000, 80846354867600, 16667836077200]]
  db := 308
  b := [
    3333567215434406879678440494666589642893241716007907256434744080670603204204355088839275484252943891054502735726020966574375356312720188106965249365849702081724768185320009350562115775219676312122531491635909935932374028302205893104323922461818927859035878460414751305255764407014926276161421599489689192214,
    7472567457529029657288816982884866620127831983471368391773863437661932736331500547297363231736597595700287628052271816911722585337274880073568580059685547643990674144325593854767832198196668869699546008451023245419078093895787612891501717138926808784638210643962061414850750862954215051853862410493213795469,
    10954318125799102199776746711408159622938593526133854494047827181759995532647564062134199658860109639329560843640644381738331345403347378441546059216583283385526349576610387683863264133355139391234255051044160866600321367416273781253342079426747103558067051136457827388844641566503443270724984473101047431260,
    13463335965499817754561346078473467642987996923044189790028163812107671615958963838211331835462638037779790572518434915434646173469057262077823294233172118558280072161299800708645222640151722056489514885335712687674031423041996382875034558433749214070431444342666040210752097544409581768303092542271043841690,
    14776211235737643508694649732566916471052335851342680067715401487799796910857616463517829789687710836135858220062627919340924539477600291300096817124709348330478135932444208402161565253076793370454152563533193264374195087343736329875797722538757945727827415416499319680296745619117833632956638974645005665810,
    14776211235737643508694649732566916471052335851342680067715401487799796910857616463517829789687710836135858220062627919340924539477600291300096817124709348330478135932444208402161565253076793370454152563533193264374195087343736329875797722538757945727827415416499319680296745619117833632956638974645005711590,
    13463335965499817754561346078473467642987996923044189790028163812107671615958963838211331835462638037779790572518434915434646173469057262077823294233172118558280072161299800708645222640151722056489514885335712687674031423041996382875034558433749214070431444342666040210752097544409581768303092542271043874580,
    10954318125799102199776746711408159622938593526133854494047827181759995532647564062134199658860109639329560843640644381738331345403347378441546059216583283385526349576610387683863264133355139391234255051044160866600321367416273781253342079426747103558067051136457827388844641566503443270724984473101047452610,
    7472567457529029657288816982884866620127831983471368391773863437661932736331500547297363231736597595700287628052271816911722585337274880073568580059685547643990674144325593854767832198196668869699546008451023245419078093895787612891501717138926808784638210643962061414850750862954215051853862410493213757273,
    3333567215434406879678440494666589642893241716007907256434744080670603204204355088839275484252943891054502735726020966574375356312720188106965249365849702081724768185320009350562115775219676312122531491635909935932374028302205893104323922461818927859035878460414751305255764407014926276161421599489689198219]
  c := [
    13046735741428, 67468316655468, 160295215850551, 283302302935580, 425562830508632,
    574437169491000, 716697697065015, 839704784150960, 932531683343450, 986953264258200]
  dq := 12
  q := [
    [308663498962, -1295194605740, 3363831345450, -7467041700440, 15143743575700, -28114939188800,
    44727312024400, -51546887380500, 34817524268200, -8923965101460],
    [-1521069323160, 4143096998450, -3673858211930, -5254487324220, 28957420320000,
    -69715802402700, 113808925825000, -125650392502000, 84336243453400, -24916944987800],
    [-5266334946810, 14036858957500, -11504822016100, -19183705814300, 92646489264900,
    -203805901382000, 304096737469000, -313084697416000, 204840965826000, -62429038915900],
    [-8460112698710, 16470202386200, 13926507684200, -123397194570000, 335075694205000,
    -610239318307000, 814289832541000, -782039663126000, 497222850090000, -152585493915000],
    [2857844725510, -43875369634000, 200987582636000, -554782865358000, 1120851346770000,
    -1755450479720000, 2129778464110000, -1928321598170000, 1194244110890000, -366075644610000],
    [77741618147500, -350002291010000, 940823596306000, -1977780182080000, 3401013532130000,
    -4787036449760000, 5394401290080000, -4658883364900000, 2821438347880000, -861535950371000],
    [360492913314000, -1423928114000000, 3299039033130000, -6112101641400000, 9519305495450000,
    -12416534287600000, 13224336587300000, -11003283678400000, 6540994455600000, -1988164337620000],
    [1235845095050000, -4630769158500000, 9979274952650000, -17168677371100000, 25013423524500000,
    -30849454794800000, 31456660510500000, -25411256389400000, 14876278736400000,
    -4501186446850000],
    [3665764128380000, -13337616857900000, 27506186644300000, -45044502638300000,
    62547218850200000, -73924928646000000, 72845622272400000, -57467219984300000,
    33218163738100000, -10008562647100000],
    [9947448701560000, -35502930105100000, 71045717122800000, -112274005155000000,
    150333185554000000, -171852487297000000, 164767956597000000, -127498319899000000,
    72920034922800000, -21886486602500000]]

/-- `icoeffs<11,double>`, generated_coeffs.hpp line 136; `extrapcoeffs<11,double>`, generated_coeffs_co.hpp
line 55. -/
def gaussD11 : GTab where
  s := 11
  da := 16
  rows := [
    [139171417790000, -51432556298300, 37356037491400, -29003790513800, 22727421526500,
    -17524011626400, 13024891173200, -9092796577120, 5701360622830, -2898753249780, 827488930846],
    [301142391948000, 313950923662000, -81056269790800, 52628212735400, -38374366816900,
    28535467644800, -20778329171500, 14326778128800, -8914667119880, 4511849309160, -1284989369970],
    [267179838503000, 682542809172000, 465725527319000, -102895248153000, 61266732476700,
    -41805375370500, 29106679541000, -19557398750900, 11982165650700, -6009479429950,
    1703721171960],
    [285266689062000, 599560307356000, 1013650411540000, 582984411480000, -116536925867000,
    64383812978000, -40916486527800, 26206189057200, -15623710800700, 7715309600150,
    -2170653908400],
    [273528599994000, 646238924303000, 888021849344000, 1269375270920000, 657011361276000,
    -121240615804000, 62192625742500, -36306333838600, 20632403755500, -9928862756460,
    2758997298950],
    [281917210619000, 614771890632000, 959986109029000, 1110957743160000, 1430767523070000,
    682312716945000, -116744800519000, 55011079796300, -28535054390300, 13129956692500,
    -3574375037800],
    [275583838282000, 637830710081000, 910818650883000, 1202275156800000, 1251830096810000,
    1485866049690000, 657011361276000, -103406447965000, 43429205294800, -18337076978000,
    4814235587070],
    [280513489489000, 620186537724000, 947074765439000, 1139762633900000, 1354939209080000,
    1300241620910000, 1430559648420000, 582984411480000, -82199356897000, 28341539968500,
    -6923853481540],
    [276639114409000, 633911326754000, 919468888988000, 1185526221710000, 1284916043010000,
    1406430809260000, 1252755990070000, 1268864071110000, 465725527319000, -54640961847000,
    11162997078200],
    [279627824951000, 623389998015000, 940365721759000, 1151642044830000, 1334801051720000,
    1336089966240000, 1352397089370000, 1113340610220000, 1012507324430000, 313950923662000,
    -22799556367400],
    [277515346650000, 630800600574000, 925749694016000, 1175061619540000, 1300997831380000,
    1382149445520000, 1291295301020000, 1194972613470000, 894095017147000, 679334403623000,
    139171417790000]]
  db := 308
  b := [
    2783428355808683324137686022127428936425781284844907417419214283707770364036877194184561103615942290514816051412098708190275209020083112138706369669946131602263963976445518335027593457915282108125517064430347406274930475969847833116715479671789283290001676284882402020598332412064650522786595366999838649929,
    6279018473245231231734714961197005009880789569770175033196700540895728756623563881734382085702726519893252927254226096799205344196887530366454421736818783845029627373137946730275761132329961154549923116484756244185944799397352964047644813684119746638522545362702622816993328385577088305572474624500402346001,
    9314510546386712571304882071582794584564237402010170589075320208693617400439275123466537925898979306555048226948316771578090858914929762220299383065939347312280624209515840934905415742775842642556421894044185756202981543499482980755215591384366794265870062953223864741002051729105634796951304991090914408754,
    11659688229599523995926185242158756971589908615847925451365986106096610660944049797701997421913084220827555459583936590564600753975304050667168019006869489074560505450012729668853581128655367105407206093966234504186169306339447869834046167128615279782338678759440312870230217341568057036312461594293257247990,
    13140227225512333109034443494525459768638233880157227819002768574275640166977262677620849850851335297956616761744528429654078299796941102432583311385610767030037822817111444234071231325585987931455553579375878070205634584134231372263077618510432955001005668058035895489953662588930706238193716919322762994870,
    13646254338895031535724176416817109457802098494739187379880020572661265301957942650583343224035864728505421146113786806427499068191708884349576990269630962271654912347553040193732834425475118115810756503397196037888678581319273959966600659241351882044522737163429804122444815085507726200366893007585648348540,
    13140227225512333109034443494525459768638233880157227819002768574275640166977262677620849850851335297956616761744528429654078299796941102432583311385610767030037822817111444234071231325585987931455553579375878070205634584134231372263077618510432955001005668058035895489953662588930706238193716919322762973090,
    11659688229599523995926185242158756971589908615847925451365986106096610660944049797701997421913084220827555459583936590564600753975304050667168019006869489074560505450012729668853581128655367105407206093966234504186169306339447869834046167128615279782338678759440312870230217341568057036312461594293257369020,
    9314510546386712571304882071582794584564237402010170589075320208693617400439275123466537925898979306555048226948316771578090858914929762220299383065939347312280624209515840934905415742775842642556421894044185756202981543499482980755215591384366794265870062953223864741002051729105634796951304991090914500390,
    6279018473245231231734714961197005009880789569770175033196700540895728756623563881734382085702726519893252927254226096799205344196887530366454421736818783845029627373137946730275761132329961154549923116484756244185944799397352964047644813684119746638522545362702622816993328385577088305572474624500402413194,
    2783428355808683324137686022127428936425781284844907417419214283707770364036877194184561103615942290514816051412098708190275209020083112138706369669946131602263963976445518335027593457915282108125517064430347406274930475969847833116715479671789283290001676284882402020598332412064650522786595366999838632041]
  c := [
    108856709269376, 564687001159110, 1349239972130010, 2404519353969450, 3652284220234890,
    4999999999996700, 6347715779760870, 7595480646031960, 8650760027861200, 9435312998829600,
    9891143290730000]
  dq := 11
  q := [
    [128345332953, -427998592189, 759540310133, -998511988159, 964315306443, -373259896712,
    -1138773793510, 3534052451920, -5138248729600, 3887815885390, -1096187719570],
    [946855400714, -3201958936850, 5850996029360, -8151263447650, 9089046336970, -7348332394150,
    2013975500940, 5509222774230, -10226077672800, 8186535104600, -2617904203420],
    [3438846533950, -11561589478000, 20879476852700, -28527215177900, 30962496682100,
    -24529301523700, 8271606561560, 11736862741200, -22977810381700, 18453635162600,
    -6112574179570],
    [9816420870450, -32684501929200, 57898700765100, -76592028562400, 78928705729500,
    -57030649938300, 12737511541300, 35021808011500, -57839896578500, 44604053366700,
    -14834016805100],
    [24238726769800, -79705318762700, 137714428637000, -174467226072000, 166414867572000,
    -99937166415200, -10997513599700, 115848291481000, -154472402365000, 112375508259000,
    -36991082978300],
    [53471512533100, -173014242785000, 289143487108000, -344339577960000, 288359356477000,
    -104371434623000, -155952460031000, 369785201817000, -416709252460000, 286578391916000,
    -92933196701800],
    [105999977058000, -335202194888000, 532935525135000, -571585605147000, 354872722732000,
    119739105197000, -699367822250000, 1104334164960000, -1105431830180000, 725509916050000,
    -231788548182000],
    [185221199941000, -563700197160000, 817334866549000, -684149639921000, 1216263829770,
    1158678933540000, -2393418258850000, 3096617608130000, -2853899665410000, 1805378523010000,
    -569266002711000],
    [264883579595000, -738881487940000, 820657220819000, -13592272568200, -1909449398480000,
    4626446982600000, -7156176348140000, 8234512784960000, -7155565909420000, 4399108499830000,
    -1371931402960000],
    [217003577910000, -362842589440000, -584591594461000, 3480783560750000, -8514107961690000,
    14665865449400000, -19665157854100000, 20962644493600000, -17447858682100000,
    10490290876800000, -3242018133260000],
    [-379110948405000, 2119888637860000, -6686249339410000, 15355339566100000, -27861185209800000,
    41408023604100000, -50945224833100000, 51480861170100000, -41480348333500000,
    24504916390500000, -7516900463710000]]

/-- `icoeffs<12,double>`, generated_coeffs.hpp line 156; `extrapcoeffs<12,double>`, generated_coeffs_co.hpp
line 61. -/
def gaussD12 : GTab where
  s := 12
  da := 16
  rows := [
    [117938340966000, -43799021576800, 32105696412600, -25286807629200, 20232451989500,
    12477447519300, -9304998366300, 6506247887750, -4082378825580, 2076151084800, -592710487057,
    -16073590208900],
    [255198232326000, 267348314988000, -69657036625600, 45873772234600, -34148783132600,
    -19887360414700, 14642593652600, -10155296188900, 6338807296670, -3213413372520,
    915875660364, 26158011723100],
    [226415082465000, 581230577547000, 400195821358000, -89663280460100, 54488048981700,
    27815691656200, -19943571019300, 13606262507700, -8405538399850, 4234600561410,
    -1203083491100, -38283982677800],
    [241748261227000, 510550484294000, 871038538724000, 507918566808000, -103577470217000,
    -39020437062100, 26638869907000, -17659336608100, 10720555923200, -5345347663460,
    1510746273010, 58886796961900],
    [231788873634000, 550336735249000, 763035605835000, 1105962361610000, 583731341346000,
    59169088296600, -36759749851900, 23179116258100, -13672957437000, 6706291855170,
    -1880001967150, -110754199818000],
    [233514110135000, 543232717216000, 782519909929000, 1047656422350000, 1112011330800000,
    622867614534000, -103795246551000, 48019349246700, -24597666558900, 11227587041700,
    -3043491936930, 1356554406360000],
    [237756683900000, 527990338121000, 814064600154000, 992658017357000, 1204222432540000,
    1356489428880000, 583731341346000, -90125227994200, 37356036881900, -15640105272300,
    4087808298620, 1186566140770000],
    [234365935660000, 540041977640000, 789671086794000, 1033496470220000, 1140823812780000,
    1186848432110000, 1271040152910000, 507918566808000, -70646896007300, 24146145682700,
    -5871579294410, 1284755666130000],
    [237079765424000, 530462029415000, 808797181117000, 1002230871110000, 1187406253710000,
    1284019211740000, 1112974633710000, 1105500414080000, 400195821358000, -46533947570200,
    9461599468010, 1217919537410000],
    [234960806272000, 537910043349000, 794052835420000, 1025992429800000, 1152820089040000,
    1219577217340000, 1201611465820000, 969963361381000, 870048679342000, 267348314988000,
    -19321550393700, 1265622589480000],
    [236469392420000, 532620478892000, 804474021542000, 1009330885730000, 1176767681060000,
    1261808819280000, 1147230230700000, 1041123941240000, 768285946304000, 578495651553000,
    117938340966000, 1233257781550000],
    [238920173869000, 523469042935000, 824989309276000, 967817784369000, 1271257929240000,
    -110819177291000, 55451351895100, -31819288732200, 17871732787600, -8536087239710,
    2362571797890, 622867614534000]]
  db := 308
  b := [
    2358766819325591359730798074250853015851453699742354478025267350190486057601935533541295353770726804830805083779836928983374020411956649836923182554954904287898983942924799482987843527447262899850134759596589655622699535535471062660618413315900801711163516844413331872839165251841905557280534747658952049363,
    5346966299765921548012735909699811210728508673516244000256302105140949681374878827026865904815822870678817966657057208058516525848177542242400432616345980025057195223824602414677757679288039553526246090355168977352124478564154654839032337991792586494517680687259140445064114056862149091434004043401933437884,
    8003916427167311316732626477167953593600586524543208895494977207897711258664557534082827631852886526353743854840640131362188193044132452233751550121704755606839934510329989639280049023187956999193622469436293168029530833871431912276492224352291981419423054702333644373883129114799256420125015717268485193300,
    10158371336153296087453222790489918825325907363729507319929728289882281625523642189757219753230261621558021466843162998248068567595105066453955210094799711842828445122630369140138426222851923340620032379067031949937652607630864029672270786116396398166977877263071175039194964303220807197160158415118609962730,
    11674626826917740438042494946243902812970498609987743736526174891074600003970583764033951325428184523336937821985443441694927139420445804830987519423690376766624072589744375194406081396401521244799154391146788645395822115515009397653273536576879046354203349945094456409783765654118820277080718282755795099540,
    12457352290670139250028121802147560541523045128480941569767550155813971372864402151557840030902117653241673805893859291652925553680182484401982105188504271470751368610545864128509842150823295962010809910398127603662170428883068942898312701646739185853714520557828251859234861619157061456919568793796222781470,
    11674626826917740438042494946243902812970498609987743736526174891074600003970583764033951325428184523336937821985443441694927139420445804830987519423690376766624072589744375194406081396401521244799154391146788645395822115515009397653273536576879046354203349945094456409783765654118820277080718282755795805420,
    10158371336153296087453222790489918825325907363729507319929728289882281625523642189757219753230261621558021466843162998248068567595105066453955210094799711842828445122630369140138426222851923340620032379067031949937652607630864029672270786116396398166977877263071175039194964303220807197160158415118610100940,
    8003916427167311316732626477167953593600586524543208895494977207897711258664557534082827631852886526353743854840640131362188193044132452233751550121704755606839934510329989639280049023187956999193622469436293168029530833871431912276492224352291981419423054702333644373883129114799256420125015717268485555961,
    5346966299765921548012735909699811210728508673516244000256302105140949681374878827026865904815822870678817966657057208058516525848177542242400432616345980025057195223824602414677757679288039553526246090355168977352124478564154654839032337991792586494517680687259140445064114056862149091434004043401933242592,
    2358766819325591359730798074250853015851453699742354478025267350190486057601935533541295353770726804830805083779836928983374020411956649836923182554954904287898983942924799482987843527447262899850134759596589655622699535535471062660618413315900801711163516844413331872839165251841905557280534747658952155014,
    12457352290670139250028121802147560541523045128480941569767550155813971372864402151557840030902117653241673805893859291652925553680182484401982105188504271470751368610545864128509842150823295962010809910398127603662170428883068942898312701646739185853714520557828251859234861619157061456919568793796223348000]
  c := [
    92196828766113, 479413718147014, 1150486629028860, 2063410228567450, 3160842505009820,
    5626167042565570, 6839157494982020, 7936589771432990, 8849513370971810, 9520586281838300,
    9907803171237000, 4373832957440680]
  dq := 7
  q := [
    [150896077412, -535369962449, 1048400184630, -1596481157790, 2064162660930, 2406368122800,
    -2216946045130, 1818713726820, -1281907899610, 704686334161, -209858179728, -2352653769850],
    [282309710189, -988742923647, 1904927312330, -2859357131500, 3657997496350, 4213860521890,
    -3869967775480, 3168272755300, -2230201436390, 1225010672760, -364683105543, -4139421003650],
    [522929454372, -1814041175830, 3452092118560, -5124148816080, 6500487961010, 7416495539470,
    -6793890505420, 5552845985280, -3904669018860, 2143431978820, -637903959580, -7313626135370],
    [962790595494, -3315954710020, 6250793762830, -9197797343350, 11590668091100, 13121886007300,
    -11995835574200, 9791823437200, -6879934722640, 3774905081240, -1123189344650, -12980152686800],
    [1766674762100, -6051310783760, 11324031765200, -16549190282300, 20744321324000,
    23339979024700, -21303020256300, 17371856337100, -12198683603200, 6690998636550,
    -1990533742290, -23145121087800],
    [3236885261410, -11040486107500, 20543506139300, -29861795827700, 37274840229900,
    41734760199800, -38046348366500, 31003517378400, -21762459850100, 11934285612800,
    -3550051968220, -41466650940400],
    [5929379135780, -20158377987200, 37344257929800, -54054884931700, 67251296863000,
    75014215412600, -68325246041500, 55651970492300, -39055653590400, 21415682115100,
    -6370235706300, -74642402168200],
    [10869115895300, -36859238292400, 68049231725600, -98176117756200, 121830303656000,
    135509532815000, -123356567159000, 100452510310000, -70491932415900, 38653735489500,
    -11498036873200, -134982536049000],
    [19950313079700, -67523726004900, 124330683466000, -178918818747000, 221591209757000,
    245977340808000, -223852172645000, 182283647034000, -127927556566000, 70155302622600,
    -20870002770000, -245196218827000],
    [36682080712600, -123968295393000, 227795837138000, -327176607046000, 404619523742000,
    448570675948000, -408205367204000, 332455559164000, -233369670030000, 128003396087000,
    -38083101081900, -447324030942000],
    [67580642714800, -228131018672000, 418551735986000, -600291548365000, 741623253858000,
    821651942035000, -747851670328000, 609273182191000, -427827180432000, 234724629113000,
    -69844987455800, -819458979639000],
    [124774865770000, -420842554702000, 771243003397000, -1105003703950000, 1364283233560000,
    1511403941560000, -1376186321410000, 1121712902320000, -788005368712000, 432475425636000,
    -128711893215000, -1507143529330000]]

/-- `icoeffs<13,double>`, generated_coeffs.hpp line 177; `extrapcoeffs<13,double>`, generated_coeffs_co.hpp
line 67. -/
def gaussD13 : GTab where
  s := 13
  da := 16
  rows := [
    [101210011913000, -37730715853300, 27856157560600, -22182703840500, 18030646911500,
    -14642861839800, 11721943452300, -9135829254770, 6827077750150, -4778468253280,
    2999626252590, -1525762992120, 435604600184],
    [219001283175000, 230303749594000, -60433198254500, 40236767556700, -30424947262300,
    23820349877700, -18672464008100, 14364746482800, -10644224460100, 7408522314170,
    -4633455397880, 2351390881970, -670516615042],
    [194299477196000, 500695755433000, 347183775549000, -78630320673100, 48527461585500,
    -34840033366100, 26090624296800, -19537207684100, 14232950875300, -9797335329880,
    6083550590300, -3073594525030, 874442385103],
    [207461084445000, 439800566806000, 755663734122000, 445364951905000, -92209168426000,
    53546508856900, -36552267998500, 26044290023500, -18420098947600, 12446081221100,
    -7637502357570, 3831038927980, -1085915779350],
    [198907528983000, 474094387268000, 661938972977000, 969774293977000, 519540118842000,
    -100633070333000, 55344249147500, -35852200828600, 24089462753600, -15790246382100,
    9511199314350, -4718412911310, 1329962009410],
    [205039757595000, 450910064519000, 715749421922000, 848574338709000, 1131500570930000,
    565707950657000, -103514560922000, 53940038996900, -32926276990800, 20503890674000,
    -11990288486500, 5847990952090, -1634478332220],
    [200379395811000, 468004290851000, 678786934545000, 918730747241000, 989622717612000,
    1232140251350000, 581378883077000, -100724350036000, 49457520072200, -28000843431100,
    15580616554000, -7396791662730, 2040628015550],
    [204054502159000, 454759508237000, 706357839585000, 870226013136000, 1072006514680000,
    1077475862320000, 1266272327080000, 565707950657000, -92420333246600, 42155565100300,
    -21381870822700, 9697434669430, -2619733768150],
    [201090061817000, 465325912100000, 684856351785000, 906520150192000, 1014990774930000,
    1167268102140000, 1107413517010000, 1232048971650000, 519540118842000, -79044390167100,
    32428578121400, -13486888079600, 3512494844070],
    [203505939606000, 456776460261000, 702005053457000, 878283822589000, 1057500336630000,
    1105371611290000, 1199310034150000, 1077869392460000, 1131289406110000, 445364951905000,
    -61296183022900, 20806932382600, -5041060618620],
    [201545581441000, 463681093714000, 688284000509000, 900527239140000, 1024847286810000,
    1150953109000000, 1136667141860000, 1166255934680000, 990552776099000, 969360224483000,
    347183775549000, -40088256244000, 8120546630120],
    [203090540442000, 458256108307000, 699001006497000, 883321381496000, 1049724462140000,
    1117051154830000, 1181430230160000, 1107595551440000, 1069505184950000, 850493136253000,
    754800749353000, 230303749594000, -16581259348700],
    [201984419226000, 462133262181000, 691367924846000, 895508372063000, 1032253159930000,
    1140551730570000, 1151035822700000, 1146058763150000, 1021049590770000, 912912607650000,
    666511393538000, 498338215042000, 101210011913000]]
  db := 308
  b := [
    2024200238265793976001079610049303002099327287249443406752330375249723025639635524721040621652658087716278288373004235222367267761966145393543092258091307212270049169012453524830216381661573748082985020756908333775318038438851462722464701087310284638618909637595959437142674399783276475337158478666123803064,
    4606074991886422395721088797689856046184199993111841954419577366979686486381646314594890787786598643442321030901405577026403779110306650662875127274655613997643891316892901300482977236198562381364960875264334990244393961533209879827810468788136014759300074413146820910935306051339159966328620881309061141179,
    6943675510989361923180088843443573381093135913164911382317750825288626076744476786259077142730281293120484213806299496579198091119620002807017459072511229099210219098216616789689231701182646332857409924459621425573667123234008772141813304105504691015605753990636549243846714887332099786266680517547440614369,
    8907299038097286914002334599804899775640632533050825149339722014457253474937436174735847561115635075348352486003719730489174416209469371209588087083016935391997226609884624983801453498885147006101991862149767967272890365366640366758806541268481095589057487164392255566414840896418064427859280742706180743704,
    10390802376844425115626160965302638169329130459975177460955555995826927178254221613029776402330596328799132035258453642083913156234388497999294645330983559747417936397378434712154122269486920922247363738386742403030602524491482866179386541196871848639256502974071154202339408554548544032501014848471968475190,
    11314159013144861920604509301988830921737886880777850993248427438578783156024998552091315933315696486056329445537634182132789840393817144512477190759360116187205330136284679375735702589305809346988043204754233668694933561758364491910574967427202955848068744744613202078279477185983847699716615557653271758240,
    11627577661543695509729475763441797407831373865339899305933271967238001204035170069136103102137068171034205000238966272932306898340864374830408796442762476728510694544660578626612592646558680524714490748456782422816388850354884320918286952252986219020185054151088117122083156049190015223981257947291912499330,
    11314159013144861920604509301988830921737886880777850993248427438578783156024998552091315933315696486056329445537634182132789840393817144512477190759360116187205330136284679375735702589305809346988043204754233668694933561758364491910574967427202955848068744744613202078279477185983847699716615557653265481850,
    10390802376844425115626160965302638169329130459975177460955555995826927178254221613029776402330596328799132035258453642083913156234388497999294645330983559747417936397378434712154122269486920922247363738386742403030602524491482866179386541196871848639256502974071154202339408554548544032501014848471969998820,
    8907299038097286914002334599804899775640632533050825149339722014457253474937436174735847561115635075348352486003719730489174416209469371209588087083016935391997226609884624983801453498885147006101991862149767967272890365366640366758806541268481095589057487164392255566414840896418064427859280742706179183318,
    6943675510989361923180088843443573381093135913164911382317750825288626076744476786259077142730281293120484213806299496579198091119620002807017459072511229099210219098216616789689231701182646332857409924459621425573667123234008772141813304105504691015605753990636549243846714887332099786266680517547443278613,
    4606074991886422395721088797689856046184199993111841954419577366979686486381646314594890787786598643442321030901405577026403779110306650662875127274655613997643891316892901300482977236198562381364960875264334990244393961533209879827810468788136014759300074413146820910935306051339159966328620881309060101292,
    2024200238265793976001079610049303002099327287249443406752330375249723025639635524721040621652658087716278288373004235222367267761966145393543092258091307212270049169012453524830216381661573748082985020756908333775318038438851462722464701087310284638618909637595959437142674399783276475337158478666123836934]
  c := [
    79084726406554, 412008003884418, 992109546332793, 1788253302798460, 2757536244816850,
    3847708420223470, 4999999999998920, 6152291579786280, 7242463755184770, 8211746697199080,
    9007890453671120, 9587991996113300, 9920915273579000]
  dq := 11
  q := [
    [618176128297, -2140880300620, 4120322396880, -6349253215780, 8635718978110, -10737632351000,
    12274898560500, -12582102593400, 10622907905300, -5775265177330, 280796017296, 1817081359720,
    -683976860739],
    [2937150506230, -10245868763000, 19973007968300, -31328798152400, 43528360902500,
    -55331665953300, 64461701480500, -67151294600100, 59241447495700, -40539730601500,
    19229818800400, -5773553972680, 1050218863740],
    [10979681922300, -38365443984600, 74964679847300, -117790902594000, 163498888026000,
    -206508918374000, 237327152366000, -242828240822000, 212501151597000, -150914992576000,
    82797418770600, -33877114518300, 8250770789870],
    [36440195496900, -127180909826000, 247821640893000, -387271611270000, 532359355928000,
    -662191504359000, 745281646658000, -745189638293000, 641705041467000, -458776010388000,
    263593729272000, -116660756702000, 30094621400200],
    [111079189233000, -386630184334000, 749329352089000, -1160645862610000, 1574502102920000,
    -1923413969050000, 2117415478510000, -2069031784340000, 1750639651830000, -1247386530030000,
    729245935786000, -332868586832000, 87786010284400],
    [316102032178000, -1096434938250000, 2111014645750000, -3236416473950000, 4327828826370000,
    -5190195342220000, 5592227074540000, -5346434058540000, 4444501678310000, -3141557503750000,
    1845241602380000, -852839532119000, 226979462605000],
    [849000766350000, -2933688687510000, 5608523950040000, -8507213877350000, 11212840223200000,
    -13207421997800000, 13942499668400000, -13056605191100000, 10664058524300000,
    -7455334969640000, 4367331104340000, -2023834208510000, 539859790906000],
    [2170107151150000, -7469464504830000, 14177499351400000, -21276893178700000,
    27649259849100000, -32007934713500000, 33135721769200000, -30416130107500000,
    24398324724100000, -16825531019000000, 9775634113770000, -4510611417080000, 1200031294800000],
    [5313445323360000, -18217124191900000, 34330208157900000, -50982080728000000,
    65340889606000000, -74380077854300000, 75551371500900000, -67984917708000000,
    53502038147300000, -36282715696700000, 20794132101200000, -9491790171310000, 2506633441080000],
    [12526022164500000, -42777538355800000, 80042197005800000, -117637400052000000,
    148728940127000000, -166518292700000000, 165958903838000000, -146301936030000000,
    112727794170000000, -74862313964100000, 42042171097500000, -18836354118500000,
    4907817637370000],
    [28543562125700000, -97097013753300000, 180390490932000000, -262377417869000000,
    327225391170000000, -360268613960000000, 352078183805000000, -303572068995000000,
    228233082018000000, -147506860792000000, 80396216986100000, -34938531271900000,
    8893589519210000],
    [63058834147900000, -213655549975000000, 394075433118000000, -567147201365000000,
    697477615211000000, -754579103787000000, 722003332146000000, -607070801759000000,
    442837746844000000, -275764092178000000, 143532802815000000, -59198566572200000,
    14429560512200000],
    [135339451820000000, -456673844274000000, 836015671941000000, -1189963204570000000,
    1441879455160000000, -1530594643510000000, 1430001591640000000, -1166576976330000000,
    817886687936000000, -482152568873000000, 232135807934000000, -86342914765300000,
    19045494419700000]]

/-- `icoeffs<14,double>`, generated_coeffs.hpp line 199; `extrapcoeffs<14,double>`, generated_coeffs_co.hpp
line 73. -/
def gaussD14 : GTab where
  s := 14
  da := 16
  rows := [
    [87798650829400, -32831162304300, 24376997719100, -19580992967800, 16111677584800,
    -13305215627000, 10896388846600, -8763020057400, 6846936910400, -5123484128430,
    3588482312980, -2253310483930, 1146282086010, -327274204462],
    [189981535902000, 200395217899000, -52882869287800, 35514117389700, -27182264868900,
    21638604352200, -17350699641600, 13771125761800, -10667364774600, 7935680261390,
    -5535932193360, 3466812812700, -1760599606720, 502217676033],
    [168552230280000, 435673907696000, 303796426720000, -69392317551900, 43344047055000,
    -31635153229600, 24227728905400, -18712135505200, 14245300638400, -10476043031200,
    7251532526260, -4517718459810, 2286836341420, -651217733285],
    [179971729466000, 382681743916000, 661233345537000, 393007917895000, -82337353649100,
    48594874272600, -33912837807200, 24911995991300, -18402103787500, 13274581994800,
    -9072771211820, 5605458743720, -2822778594660, 801673175676],
    [172547617984000, 412533979918000, 579204623739000, 855778714769000, 463845993695000,
    -91281200030700, 51298239065900, -34239950868900, 24010077122000, -16785938592600,
    11247301694100, -6861295521170, 3428449090380, -969793854289],
    [177874472666000, 392337598959000, 626327197422000, 748787154812000, 1010227535010000,
    512996159303000, -95863697595300, 51428942565400, -32729820028600, 21709671465200,
    -14097907680700, 8436069847720, -4167066067960, 1171844685670],
    [173819598205000, 407251338880000, 593916061260000, 810781747136000, 883477443626000,
    1117373584700000, 538159633658000, -95894450274700, 49024208363100, -29511808470100,
    18192764865300, -10563185247000, 5127972399180, -1429652634850],
    [177026954294000, 395662463400000, 618156038686000, 767823070926000, 957203795860000,
    976968110243000, 1172213717590000, 538159633658000, -91381266091500, 44214543763800,
    -24765911344800, 13676792179600, -6460903081410, 1777703454160],
    [174425456973000, 404957501867000, 599156783592000, 800113743472000, 905982315925000,
    1058722138640000, 1024890324750000, 1172182964910000, 512996159303000, -82535547617700,
    37228680979200, -18734343982100, 8452836840140, -2277171007740],
    [176567095513000, 397361986708000, 614454148961000, 774768534097000, 944477925982000,
    1001982241480000, 1110559218180000, 1025021028250000, 1117273518640000, 463845993695000,
    -69762878978200, 28388229701000, -11743544119100, 3049683674690],
    [174795628483000, 403613214393000, 601987394696000, 795088607003000, 914417405395000,
    1044394422390000, 1051407271320000, 1110232105120000, 977397444334000, 1010029341040000,
    393007917895000, -53640492097400, 18108691883200, -4374427807140],
    [176248519392000, 398503599457000, 612110571899000, 778764303265000, 938168030421000,
    1011747017970000, 1095031402820000, 1052091538410000, 1057627471840000, 884347940335000,
    855408153343000, 303796426720000, -34883471897600, 7045071379260],
    [175095083983000, 402551035406000, 604126040627000, 791551767984000, 919756307128000,
    1036659683380000, 1062548141550000, 1093669966960000, 1004353714250000, 954874252259000,
    750501718401000, 660475722727000, 200395217899000, -14384234243200],
    [175924575863000, 399644153713000, 609846163923000, 782427353478000, 932815471518000,
    1019145381700000, 1085082287370000, 1065422878470000, 1039297534230000, 911580309805000,
    805596828759000, 583215855720000, 433621598103000, 87798650829400]]
  db := 308
  b := [
    1755973016587593151591643806909589030985280463856363829074994509820816141890413526883839849932323183071086623822027556727927392553099215493386670442297858197396624404372228364532370742073853375159300715300544685130881177033802618969522294873299050437935904327044425527781095738044621648343380412060882729124,
    4007904357988010490281663853142715479184889269729738260069953274478573722864358493176809540956887798431125079540194237439765456912863022171883775599223704738986938618502683052885892613269772745615677733124855797322883267882608004687446770638554687675994193246397378142367581893645469507593959641161732825403,
    6075928534395159234470740453623831297833467284503733614553769627157987194626324615940995313518750357445777532652962849714057871567044342740482106285722730401445927053077103931002823377281466480127030511981835899270295037750248645249462050650955361786709105416648319337324109337606520468779147684278127732180,
    7860158357909676728480096931192107830283401866866168748465852193738408818480414925697904668120903813842657599954059425094271874603232881337446214551863230099350051109782372955392116140280534305845385660923346758006918872141925113294496193422195423425114324525620482851079333665449047681553822187276041950345,
    9276919873896890687085829506257851812446130146866582951001746253454917513176272221277636557335611149128056075286445944953894824871260804475427626207641821803643202030013616189848570692537672804666561394522496942619224268319696130896093991238030751372574677785064549447515336782318788732728214529799226224416,
    10259923186064780198296203283060902785516953065470972585844864514168357241262486016971591999594544786218463472122471436422674280669253224329593511510701583357089366649673741391956905566284240641271983801045252648826771248656187766257345964259490361973535249823605158866461284827504183148683651036987426028540,
    10763192673157889509793822165813001763749877902706440010988819627180939367699730200051222070540978911862833616621838549647408298823246509451780095402549071402087890134578254114381320868272459647314060183101667268823026128215531720645632734917474363328136544875619685827471257755431368812317824508436610726670,
    10763192673157889509793822165813001763749877902706440010988819627180939367699730200051222070540978911862833616621838549647408298823246509451780095402549071402087890134578254114381320868272459647314060183101667268823026128215531720645632734917474363328136544875619685827471257755431368812317824508436594688720,
    10259923186064780198296203283060902785516953065470972585844864514168357241262486016971591999594544786218463472122471436422674280669253224329593511510701583357089366649673741391956905566284240641271983801045252648826771248656187766257345964259490361973535249823605158866461284827504183148683651036987413544040,
    9276919873896890687085829506257851812446130146866582951001746253454917513176272221277636557335611149128056075286445944953894824871260804475427626207641821803643202030013616189848570692537672804666561394522496942619224268319696130896093991238030751372574677785064549447515336782318788732728214529799221578134,
    7860158357909676728480096931192107830283401866866168748465852193738408818480414925697904668120903813842657599954059425094271874603232881337446214551863230099350051109782372955392116140280534305845385660923346758006918872141925113294496193422195423425114324525620482851079333665449047681553822187276015196586,
    6075928534395159234470740453623831297833467284503733614553769627157987194626324615940995313518750357445777532652962849714057871567044342740482106285722730401445927053077103931002823377281466480127030511981835899270295037750248645249462050650955361786709105416648319337324109337606520468779147684278148536558,
    4007904357988010490281663853142715479184889269729738260069953274478573722864358493176809540956887798431125079540194237439765456912863022171883775599223704738986938618502683052885892613269772745615677733124855797322883267882608004687446770638554687675994193246397378142367581893645469507593959641161726341104,
    1755973016587593151591643806909589030985280463856363829074994509820816141890413526883839849932323183071086623822027556727927392553099215493386670442297858197396624404372228364532370742073853375159300715300544685130881177033802618969522294873299050437935904327044425527781095738044621648343380412060883202379]
  c := [
    68580956515968, 357825581681843, 863993424651485, 1563535475941816, 2423756818209721,
    3404438155363430, 4459725256465930, 5540274743536850, 6595561844643800, 7576243181784390,
    8436464524047660, 9136006575353660, 9642174418310800, 9931419043481400]
  dq := 11
  q := [
    [-1029104912020, 3566499321600, -6876905933910, 10643324918600, -14614348619200,
    18539642504000, -22109012019700, 24830179992900, -25791915349800, 23454542186300,
    -16585131317700, 7573072251540, -1780509304920, 280352091872],
    [-3781467070350, 13233852312200, -25973368478400, 41246102599500, -58558640489400,
    77293172643600, -96163325318900, 112246223960000, -119957644092000, 112131552041000,
    -86145330290000, 51267077299600, -22653072208600, 5865555252890],
    [-12753352756800, 44917649372500, -89130880702700, 143618387126000, -207238128910000,
    277608252332000, -348535745561000, 406717411304000, -430761478053000, 399398336655000,
    -311001615948000, 195786729941000, -94391420200800, 25799879258900],
    [-41931281058000, 148064665275000, -294965192304000, 477186604845000, -690028250086000,
    922325105430000, -1148000534900000, 1318843344190000, -1369603622040000, 1249521642780000,
    -971066891203000, 623048028131000, -309747691771000, 86379765609700],
    [-133900310264000, 472562434280000, -939929190847000, 1515128856430000, -2175814744220000,
    2874998440670000, -3519114324200000, 3958778228490000, -4021399721700000, 3604796635810000,
    -2782163039420000, 1796332768360000, -904983293363000, 254727955264000],
    [-410628213009000, 1445718062580000, -2861996645530000, 4578215937990000, -6500730109660000,
    8458413182580000, -10155637921600000, 11178350441000000, -11114997857800000,
    9796545927680000, -7496778403750000, 4844282877150000, -2454857400930000, 694117487665000],
    [-1202894751360000, 4221287290250000, -8305663486420000, 13163098115800000,
    -18452826899000000, 23621366149600000, -27820866278400000, 29995928337400000,
    -29245213258500000, 25377786022100000, -19248490161900000, 12414710581700000,
    -6304515764780000, 1786309089140000],
    [-3366553845430000, 11772283099300000, -23012073267000000, 36119439417600000,
    -49986614096600000, 62980497750900000, -72845083114100000, 77063083048300000,
    -73809796377200000, 63144971927600000, -47473847382000000, 30517315135500000,
    -15497316907400000, 4393707813090000],
    [-9028414181150000, 31458904010800000, -61098712151300000, 94999693224500000,
    -129861047557000000, 161197599679000000, -183354094495000000, 190649654386000000,
    -179686040748000000, 151730774721000000, -113093026467000000, 72391483957300000,
    -36711650443800000, 10404887881800000],
    [-23292602901800000, 80883515775800000, -156119024342000000, 240577130399000000,
    -325071700326000000, 397970003138000000, -445771966993000000, 456264228605000000,
    -423751517983000000, 353507687501000000, -261249724602000000, 166408326423000000,
    -84191724159100000, 23837380171200000],
    [-58041519663700000, 200891680998000000, -385483132903000000, 589031655587000000,
    -787335614628000000, 951604149745000000, -1050910775670000000, 1060150757730000000,
    -971276921980000000, 800992257767000000, -586905598806000000, 371779752462000000,
    -187497757673000000, 53001076841900000],
    [-140203163101000000, 483765274515000000, -923131935935000000, 1399410447450000000,
    -1851645663630000000, 2211315973780000000, -2410058270920000000, 2398504377550000000,
    -2169300807350000000, 1769069899550000000, -1284910923460000000, 808895574959000000,
    -406315688353000000, 114604914001000000],
    [-329346623197000000, 1133050775530000000, -2150733286600000000, 3235936928650000000,
    -4240824367740000000, 5007678035350000000, -5390116730160000000, 5295525265050000000,
    -4730169330350000000, 3814628941400000000, -2745167197930000000, 1716032950620000000,
    -857752261382000000, 241256909162000000],
    [-754380568648000000, 2587978499010000000, -4887722581740000000, 7301292123980000000,
    -9481513452620000000, 11075792330200000000, -11779740498200000000, 11428916055700000000,
    -10083342085400000000, 8038907836020000000, -5727555993760000000, 3551289378100000000,
    -1764422789970000000, 494501755156000000]]

/-- `icoeffs<15,double>`, generated_coeffs.hpp line 222; `extrapcoeffs<15,double>`, generated_coeffs_co.hpp
line 79. -/
def gaussD15 : GTab where
  s := 15
  da := 16
  rows := [
    [76883104990300, -28820765229600, 21497713568900, -17388496538000, 14447041391600,
    -12087512459400, -8291982799570, 6688209755300, -5234503511730, 3920467306920,
    -2747156217550, 1725381277070, -877790602646, 250623437545, 10073075528500],
    [166362227510000, 175915118720000, -46635138656700, 31535420516700, -24370936454200,
    19654599521200, 13026047364600, -10414855621400, 8102281944560, -6042889950420,
    4221940685220, -2646296860310, 1344572729420, -383635400719, -16035418051500],
    [147596657936000, 382453177464000, 267898051168000, -61612578219000, 38854077848600,
    -28725872715900, -17688266043400, 13895780566300, -10683344102600, 7903339433920,
    -5490701909290, 3428371523670, -1737689484190, 495161011044, 22380918470900],
    [157597621062000, 335931318480000, 583100851091000, 348926694815000, -73794094617400,
    44109680181300, 23528092447400, -17928315891600, 13514426363300, -9866096673400,
    6792660004510, -4215637160760, 2128536474580, -605313101683, -31309080275100],
    [151094077412000, 362144152536000, 510754948902000, 759798064004000, 415673014542000,
    -82827733654100, -32303967439500, 23355819661500, -17052285606900, 12194819541500,
    -8281857090880, 5093641294940, -2557384448470, 725131747848, 47328695554300],
    [155763030989000, 344401095552000, 552331478313000, 664782993761000, 905323400785000,
    465402500039000, 48467929814100, -31782242357100, 21997331868500, -15230203882600,
    10132184771000, -6149616868830, 3062540252930, -864724368757, -88394434056000],
    [155025009303000, 347305608049000, 545152787351000, 681643199524000, 857860006893000,
    886264983356000, 506445604814000, -88439574497100, 44540016722000, -26513977808500,
    16210190107200, -9356685015200, 4524629391230, -1258799322370, 1080597001130000],
    [152729660096000, 355523462959000, 528291945368000, 710463622321000, 811775780039000,
    960621911493000, 1103178965570000, 496078713318000, -82928352889900, 39657540280000,
    -22021855816100, 12086397341200, -5686340482940, 1561142017680, 944637878374000],
    [154630934349000, 348767697188000, 541945719205000, 687721204860000, 846576232968000,
    908807668209000, 964423279814000, 1080551860690000, 465402500039000, -73977371700500,
    33070395869600, -16535375976800, 7429141888750, -1996821008500, 1023939668990000],
    [153041078233000, 354387621889000, 530702461041000, 706135246722000, 819151209543000,
    947857285685000, 1045195177070000, 944828731081000, 1013632733730000, 415673014542000,
    -61944674373600, 25041153434100, -10313915095900, 2672132568750, 968801606974000],
    [154371523082000, 349701700966000, 540011739497000, 691060729626000, 841212125758000,
    917290573714000, 989363117180000, 1023466506910000, 886695319897000, 905140123702000,
    348926694815000, -47304748755400, 15898918960700, -3831411080960, 1010085742530000],
    [153271048970000, 353567926925000, 532367730812000, 703344091540000, 823442689651000,
    941488344180000, 1030579475670000, 969776508165000, 959530872794000, 792491951236000,
    759465967850000, 267898051168000, -30622940023500, 6169552044750, 978261646069000],
    [154149845381000, 350485664711000, 538442399196000, 693631448946000, 837388919035000,
    922702718133000, 999865162263000, 1008192844690000, 911150400557000, 855716965539000,
    666317969114000, 582431240993000, 175915118720000, -12596017529200, 1002572282260000],
    [153515586543000, 352708028043000, 534070721059000, 700600545848000, 827425561778000,
    936039503590000, 1021183192430000, 982084351107000, 942892512537000, 816898987693000,
    715241886169000, 514298388767000, 380651002670000, 76883104990300, 985469216880000],
    [152205067963000, 357516577923000, 523709704995000, 719875245447000, 791688488805000,
    1013733352970000, -90287755941200, 47519548261700, -29816911415000, 19570249045500,
    -12610232690300, 7504156967900, -3693225518270, 1036549884140, 496078713318000]]
  db := 308
  b := [
    1537662099805863417731419678860220886087407241671703713211414275211859473355858401951938536619970200125849559442973656509656558966535245682860606247440200440268957837268080817368398934233377033098322534979827704622218758933775277409498393104153504782786054118837258645792067478678146979296987196682830460390,
    3518302374405406235463370822533366923335401637716535991295364645719352775643711852242022603334696960967774492929752026940230742163864553964782780207687912395354844511880668903988342675918187132611945329894131108013892909185743125620767818801236636230455682117786153920376609980220032832905613055588209219898,
    5357961023358596750593477334293465170777185787905099034351119456093899742615789986284292856880431202219904383918752779063590524942028391199873541393076808106619185754505777447825030322442905471418415732863810631689778551277549883941870884250029295768447647052475458456531516696281578973775514405708189811013,
    6978533896307715722390239725551416126042513765775562160119556431554422227095390584038412868178566681907454444663831995205554586227457048141166712032200631863923972528799705986366803856514178215443159920090907345668232150777290506186878592789136497179274164905662499806197037025681512297512536141498954293869,
    8313460290849696677660043024060440556545009004920645366093259528177678160613925885535258714620776810742230770328592611370908573150854838774625873359180491034956146119293248188949999773688221555996238784868754270766445343663806960365826785066865693097128193472816959009632880306033454622277196216029809258764,
    9308050000778110551340028093321141225311300613896420140774786365500662775134958030947488444304966180269988854500692217653363510869409111094568254087622011972273167492276274919274938522793491733719115027660472336125208960510834848248600071736300196203426459049551404201134206739487028542342457035924637160946,
    10128912096278063644031009998375965741933107900473867839835205802571769937737303704669672035639401606767574133541499508865476231443597410963378329345695313061280427247793215159182525149891117257084623051989019354986720954086921452888818856184823550790916758282725648693014660380627746595112562478529759946810,
    9921574266355578822805916322191966240934627997877099674236896396456239876671713406665749958240891160383010427444654958823957387958052105660433067999944287655963512132079636156635223339464080229170491143647586925620862848607538671782148026159866401343023420141507441613828351583304372454333414709302649829266,
    9308050000778110551340028093321141225311300613896420140774786365500662775134958030947488444304966180269988854500692217653363510869409111094568254087622011972273167492276274919274938522793491733719115027660472336125208960510834848248600071736300196203426459049551404201134206739487028542342457035924593310703,
    8313460290849696677660043024060440556545009004920645366093259528177678160613925885535258714620776810742230770328592611370908573150854838774625873359180491034956146119293248188949999773688221555996238784868754270766445343663806960365826785066865693097128193472816959009632880306033454622277196216029790738017,
    6978533896307715722390239725551416126042513765775562160119556431554422227095390584038412868178566681907454444663831995205554586227457048141166712032200631863923972528799705986366803856514178215443159920090907345668232150777290506186878592789136497179274164905662499806197037025681512297512536141498847014021,
    5357961023358596750593477334293465170777185787905099034351119456093899742615789986284292856880431202219904383918752779063590524942028391199873541393076808106619185754505777447825030322442905471418415732863810631689778551277549883941870884250029295768447647052475458456531516696281578973775514405708140197696,
    3518302374405406235463370822533366923335401637716535991295364645719352775643711852242022603334696960967774492929752026940230742163864553964782780207687912395354844511880668903988342675918187132611945329894131108013892909185743125620767818801236636230455682117786153920376609980220032832905613055588143487435,
    1537662099805863417731419678860220886087407241671703713211414275211859473355858401951938536619970200125849559442973656509656558966535245682860606247440200440268957837268080817368398934233377033098322534979827704622218758933775277409498393104153504782786054118837258645792067478678146979296987196682840107698,
    9921574266355578822805916322191966240934627997877099674236896396456239876671713406665749958240891160383010427444654958823957387958052105660433067999944287655963512132079636156635223339464080229170491143647586925620862848607538671782148026159866401343023420141507441613828351583304372454333414709302625108573]
  c := [
    60037409897639, 313633037996451, 758967082948054, 1377911343199147, 2145139136956238,
    3029243264612243, 4999999999997260, 6005970469987940, 6970756735384550, 7854860863043350,
    8622088656801340, 9241032917051250, 9686366962008800, 9939962590104300, 3994029530015470]
  dq := 6
  q := [
    [-680785069835, 2387450175140, -4652428451030, 7187728241150, -9662262498210, 11746229640600,
    13778989912600, -13493401410600, 12352568434600, -10484165103500, 8096991682750,
    -5466034888090, 2920276676380, -856461606004, -13174694729900],
    [-1227189814040, 4275962049420, -8258359679220, 12645634418200, -16873430525100,
    20397694697200, 23760656723800, -23219070455100, 21223301764700, -17992969944900,
    13884876361400, -9367986914920, 5003108470360, -1467034432830, -22785192212900],
    [-2208225375780, 7656535016050, -14685770130700, 22331616640700, -29622881497000,
    35649124097000, 41291637729800, -40280738608000, 36771896480500, -31146099843300,
    24018851583500, -16197714581800, 8648013323970, -2535404359290, -39690840136300],
    [-3974685222700, 13729577659400, -26194161229600, 39615313413000, -52305888706500,
    62720975732400, 72317181451500, -70447471565700, 64244195251400, -54373899333300,
    41908228948000, -28250977090300, 15079536936900, -4420399858850, -69647526129600],
    [-7166881097220, 24684744201800, -46901023345800, 70630869006400, -92916342639100,
    111100892421000, 127630876997000, -124189133786000, 113157710656000, -95712511482200,
    73736092446300, -49690862079600, 26518089821400, -7772643075640, -123109877838000],
    [-12959106197200, 44535643720300, -84347945802800, 126604525893000, -166073452145000,
    198129438143000, 226942726632000, -220618328877000, 200881957479000, -169824958433000,
    130782642203000, -88111599692900, 47013854575500, -13778876261500, -219176521063000],
    [-23514726896600, 80673467573100, -152414826809000, 228184490216000, -298650369871000,
    355666306844000, 406437746753000, -394812834947000, 359287819256000, -303611009000000,
    233738977670000, -157441928495000, 83994955818400, -24615551931300, -392922516031000],
    [-42836394856900, 146769088385000, -276762234482000, 413524854971000, -540279839475000,
    642528862770000, 732871505653000, -711467346772000, 647141950449000, -546662422233000,
    420746023239000, -283355339180000, 151152293650000, -44294033933300, -709076968054000],
    [-78359535112000, 268211540267000, -505028172020000, 753427665039000, -983026768826000,
    1167777189270000, 1329941657380000, -1290428395170000, 1173285384000000, -990812476593000,
    762424670031000, -513384977186000, 273832863129000, -80240723755600, -1287619920340000],
    [-143947470710000, 492328971348000, -925987857857000, 1379787775900000, -1798333189530000,
    2134429897740000, 2427769119740000, -2354594152290000, 2140105195360000, -1806796726760000,
    1390059429390000, -935889883658000, 499152531259000, -146259878073000, -2351823761770000],
    [-265535342588000, 907646460040000, -1705646675990000, 2539163463240000, -3306577034200000,
    3921745300490000, 4455975702530000, -4319996367940000, 3925274824660000, -3313179376670000,
    2548584064210000, -1715711120930000, 915007828738000, -268103660655000, -4318648064840000],
    [-491788906001000, 1680251122300000, -3155382478750000, 4693890412100000, -6108325053720000,
    7240432051560000, 8219158540240000, -7965590141110000, 7235798188640000, -6106237944120000,
    4696424393490000, -3161359944000000, 1685901040130000, -493968256597000, -7969203024070000],
    [-914272692981000, 3122592944780000, -5860842341560000, 8713298429150000, -11332471883600000,
    13425989716000000, 15228342619600000, -14753905684200000, 13398889445400000,
    -11305209229400000, 8694018557690000, -5851883230830000, 3120587431930000, -914313711212000,
    -14770820370600000],
    [-1705673815930000, 5823865068470000, -10926159840900000, 16235912347100000,
    -21106124508000000, 24994018456000000, 28328109111500000, -27437638804400000,
    24912192125300000, -21016177887200000, 16160415780300000, -10876848809200000,
    5800046117470000, -1699359011830000, -27486576328600000],
    [-3192345609940000, 10897420034100000, -20437305164400000, 30356477409300000,
    -39445625982200000, 46692922281200000, 52884879792800000, -51208866819000000,
    46486140771500000, -39210900876700000, 30148880966300000, -20291049287500000,
    10819963988900000, -3170132055840000, -51330459448500000]]

/-- `icoeffs<16,double>`, generated_coeffs.hpp line 246; `extrapcoeffs<16,double>`, generated_coeffs_co.hpp
line 85. -/
def gaussD16 : GTab where
  s := 16
  da := 16
  rows := [
    [67881148529400, -25498156016700, 19090991781400, 13003863616700, -10994139781000,
    9288103824610, -7784002926380, 6429130730580, -5195917646170, 4071213210200, -3051128387340,
    2138687394230, 683510931381, -15529395863500, -1343427515590, -195156840006],
    [146883557391000, 155633809847000, -41413271759700, -21934548256800, 17874391815400,
    -14782998956700, 12224834918900, -10007893356600, 8038848222800, -6271516289450,
    4685546029920, -3277060174630, -1044677562630, 28162406632900, 2055336417710, 298119715120],
    [130314887570000, 338360541380000, 237896279206000, 34965221728200, -26118396911300,
    20626223013400, -16592708238000, 13344517508800, -10591002356800, 8193607286190,
    -6085292897310, 4238160161760, 1344618916580, -55018926340000, -2650409352490, -383332614651],
    [133402027363000, 320395557787000, 453551063259000, 373989972041000, -75271621138900,
    43579823192400, -30262384237200, 22386097675600, -16860315402000, 12598276945000,
    -9136508357380, 6259343264600, 1949863457210, 678462253282000, -3870875281090, -553795862795],
    [137527040949000, 304689428780000, 490485387199000, 814547479490000, 422891298488000,
    -81360284456800, 45370736866600, -30426448597000, 21712009507100, -15696206873200,
    11141466517000, -7524438870860, -2308063507410, 593603918071000, 4609290126410, 653498025627],
    [134381190018000, 316307469464000, 465043796221000, 712277617589000, 921151518922000,
    456508537612000, -84464279352300, 45438011992100, -29374365211800, 20113139485300,
    -13812641749900, 9133389052750, 2740620322760, 642830051583000, -5519195910180, -772613934738],
    [136877916708000, 307250535497000, 484126854179000, 771876047046000, 805272007369000,
    994428614739000, 473626526138000, -84480334210400, 43795774226700, -27167144670900,
    17676746511800, -11316375856500, -3288596574870, 608634670250000, 6702772940160, 921436520028],
    [134840860539000, 314556216268000, 469089785472000, 730303197571000, 872949741646000,
    869221300998000, 1031733386490000, 473626526138000, -81411539514100, 40510589605900,
    -23896102963400, 14510186027400, 4017084196470, 634461232134000, -8334295766670,
    -1115619648900],
    [136534910994000, 308526999370000, 481311754323000, 761792585833000, 825669457490000,
    942391440436000, 901815040283000, 1031717331630000, 456508537612000, -75368921946600,
    35702326494300, -19685195305800, -5039849770660, 614011467225000, 10748762191000,
    1381107040350],
    [135108799033000, 313575683201000, 471183268286000, 736838477566000, 861478803848000,
    891305065718000, 977679500872000, 901882315409000, 994377359681000, 422891298488000,
    -66567535406700, 29540938206900, 6578190913040, 630669295149000, -14692828786600,
    -1764743890690],
    [136316092922000, 309317756236000, 479663433694000, 757116452440000, 833184320030000,
    929877390627000, 924866954600000, 977515436513000, 869437252032000, 921054218114000,
    373989972041000, -55317397003900, -9127938093720, 616885513013000, 22241495153900,
    2360269696020],
    [135296349037000, 312904546822000, 472556577170000, 740466661773000, 855995373964000,
    899635050041000, 964455266917000, 925195872689000, 941859356858000, 805687246461000,
    814379117728000, 311572428139000, 14067427804500, 628342944282000, -42008845071400,
    -3383332836870],
    [135464177344000, 312312297256000, 473737221995000, 743294398053000, 852054113264000,
    904978227002000, 957260945632000, 935028217356000, 927800074181000, 827908205160000,
    769914492340000, 594982449645000, 155633809847000, 626421916452000, 517205830172000,
    -11121260332200],
    [139145629896000, 297200191889000, 517801403484000, -66399173644700, 40095350514500,
    -28842281633600, 22057179586800, -17202214642000, 13382025183700, -10212776988900,
    7513282309700, -5198088004010, -1636927128380, 311572428139000, 3235981242580, 465948022208],
    [136145629673000, 309923000777000, 478442967765000, 754065236980000, 837588989689000,
    923608077581000, 933908534767000, 963845760513000, 892390852211000, 871900993886000,
    713014722355000, 678163782618000, -27092921687000, 618906696116000, 237896279206000,
    5447409488740],
    [135957453899000, 310584108762000, 477135985928000, 751031072470000, 841711383765000,
    918212992871000, 940823921545000, 955037055202000, 903728971400000, 856776736756000,
    734976080466000, 638674252141000, 336765775710000, 621006168883000, 456701566631000,
    67881148529400]]
  db := 308
  b := [
    1357622970587704742589028622800905175613368778338039899530515953690205683210808662466288961451544044994871299770430337735418759871162609791418822630773399027093393816289385867376644876297089520357890246472587023348663853435641274731130778810880142928295412991382841805703061008829027988806128058003877547703,
    3112676196932394643142191849718884713749325417645342895065175790976786944352190953060585476842586726633387042185052937420475513669653442921875217346393677695151252891643356164272210626109425362223674574637359392642649408929261050071846664767069267777862785259157274378109866792034473765563004995461123720529,
    4757925584124639240496255380112311317763175159185632907841114361481587978884097972351247866040249324450629457481047074153017406052666142352608634091968155261569803133210129419689677879310915390463774922804632121893030806903630733227532371010258715467310191934084094369686618647297362276785200433935585656443,
    7479799440828836604075086527373927448524553410391823340271098109368020201020899122588931920152962903703334893554907760087208044119739021846663675543538419463877819292392990563955012739273696937670870798163232266833383332792624825155101056584136757378665446813971497954241549768890585904509983692531883301132,
    8457825969750126909465603951517998110581973670801414087254146784040183210496526546607766127103911402378083315145871556505351225970087428386726254792813881494456321387133675296521599239958266595762668703761285737647214482204979808287244652472065431660642450331817808298224851314543816918196374671122526857723,
    9130170752246179443338183398460996969177811182732464120924757218971523247505558748020021255849263765702251237340823601796617072658837518386156439509699275247966444901838896699176304727316467884355196905923215179837443757065114440558067867598943153303747325047599574406585243190904299767503059938028225420036,
    9472530522753424814269836160414155257345449419795148751875662260001144538456650315006698891676697614126690282160482116485418260877020036558451940947159222057979078063835592298080867490879871398916844560450980131471324530736467199090820189703094192060817254372017848232325943497636379982407485883403531555198,
    9472530522753424814269836160414155257345449419795148751875662260001144538456650315006698891676697614126690282160482116485418260877020036558451940947159222057979078063835592298080867490879871398916844560450980131471324530736467199090820189703094192060817254372017848232325943497636379982407485883403333344607,
    9130170752246179443338183398460996969177811182732464120924757218971523247505558748020021255849263765702251237340823601796617072658837518386156439509699275247966444901838896699176304727316467884355196905923215179837443757065114440558067867598943153303747325047599574406585243190904299767503059938027679422200,
    8457825969750126909465603951517998110581973670801414087254146784040183210496526546607766127103911402378083315145871556505351225970087428386726254792813881494456321387133675296521599239958266595762668703761285737647214482204979808287244652472065431660642450331817808298224851314543816918196374671122127735933,
    7479799440828836604075086527373927448524553410391823340271098109368020201020899122588931920152962903703334893554907760087208044119739021846663675543538419463877819292392990563955012739273696937670870798163232266833383332792624825155101056584136757378665446813971497954241549768890585904509983692532133026079,
    6231448562776693602623814109600821007244342961110133997237529521470548196073267679898459500882784218010752472361384615816493716780833799756099015137653969751905886513655973690927682420854266910249079287786708146326289827932280668878256419053552339422659133249969060555122865779864053396228762327513866744923,
    3112676196932394643142191849718884713749325417645342895065175790976786944352190953060585476842586726633387042185052937420475513669653442921875217346393677695151252891643356164272210626109425362223674574637359392642649408929261050071846664767069267777862785259157274378109866792034473765563004995461219664102,
    6231448562776693602623814109600821007244342961110133997237529521470548196073267679898459500882784218010752472361384615816493716780833799756099015137653969751905886513655973690927682420854266910249079287786708146326289827932280668878256419053552339422659133249969060555122865779864053396228762327513836001130,
    4757925584124639240496255380112311317763175159185632907841114361481587978884097972351247866040249324450629457481047074153017406052666142352608634091968155261569803133210129419689677879310915390463774922804632121893030806903630733227532371010258715467310191934084094369686618647297362276785200433935552934972,
    1357622970587704742589028622800905175613368778338039899530515953690205683210808662466288961451544044994871299770430337735418759871162609791418822630773399027093393816289385867376644876297089520357890246472587023348663853435641274731130778810880142928295412991382841805703061008829027988806128058003895390404]
  c := [
    52995325041815, 277124884634240, 671843988060379, 1910618777987445, 2709916111714467,
    3591982246102992, 4524937450812018, 5475062549192700, 6408017753898590, 7290083888286950,
    8089381222014300, 8777022041777230, 9722875115366800, 1222977958225898, 9328156011938740,
    9947004674958400]
  dq := 3
  q := [
    [135465586136, -460681378644, 858568449226, 1629807732710, -1913730754590, 2091186142270,
    -2150058053610, 2091021969560, -1925588535540, 1673523948540, -1360201074650, 1014354364810,
    349584899424, -1265147722210, -666637158937, -101468413497],
    [213698102776, -726651643726, 1354004975980, 2568840128650, -3015293660710, 3293664297330,
    -3385101998960, 3290932468680, -3029510421080, 2632110049830, -2138732812720, 1594575370890,
    549388050833, -1994694419560, -1047777239120, -159451248582],
    [346179119633, -1177001850170, 2192730225570, 4157572485560, -4878309665800, 5326537343820,
    -5472175222800, 5317822030700, -4893552448910, 4250190222010, -3452493356390, 2573448851370,
    886360944216, -3229410478520, -1690664736380, -257233463555],
    [574550352097, -1953229206570, 3638078528920, 6893730525020, -8085638146940, 8824877076880,
    -9062308063200, 8803021269000, -8097519092600, 7030431561110, -5709164909310, 4254460693460,
    1464852581120, -5356578874150, -2794477718410, -425086576175],
    [974350531965, -3311986937890, 6167614970620, 11679485068500, -13693417224100, 14939026732000,
    -15334326360200, 14889281087600, -13690544057000, 11882113518700, -9646011752450,
    7186322406600, 2473474106600, -9078385000870, -4719274302800, -717722787111],
    [1683639220150, -5722307309110, 10653943645700, 20162445976200, -23629833119600,
    25768448096700, -26438923570200, 25660761394100, -23585423854600, 20462556200100,
    -16606478192300, 12368681886000, 4255741468720, -15677567270400, -8120902095740,
    -1234782475700],
    [2956394630170, -10046957023200, 18701931974200, 35371373580100, -41438339848200,
    45170081507700, -46325822386900, 44943720659900, -41292704800600, 35812554647100,
    -29054849881100, 21634813844800, 7441461458940, -27512784554100, -14201937753400,
    -2158936055130],
    [5262505960880, -17882015706900, 33280060395400, 62905859082300, -73668167129700,
    80270297293600, -82290439773900, 79803248558800, -73292537064800, 63543572743400,
    -51537593411500, 38366318949200, 13192044135200, -48945867638000, -25180265967900,
    -3827020425890],
    [9475650364310, -32194867184900, 59906431484400, 113170276042000, -132484717800000,
    144302499394000, -147875817261000, 143350721831000, -131607205015000, 114063450821000,
    -92485254952700, 68832490356000, 23660117017300, -88083374859500, -45167088141000,
    -6863312096040],
    [17227359025100, -58526448357600, 108883438463000, 205581338088000, -240584938695000,
    261948904020000, -268333992994000, 260025938266000, -238640001381000, 206761920804000,
    -167600285204000, 124708077425000, 42853318005600, -160057445932000, -81817195768200,
    -12429985765300],
    [31576068889600, -107262890124000, 199519643417000, 376514298828000, -440478056515000,
    479423779431000, -490932241172000, 475562479272000, -436302030665000, 377903264430000,
    -306244199182000, 227819298486000, 78262193238100, -293223157785000, -149439347908000,
    -22699102641700],
    [58274418286600, -197938096312000, 368125245178000, 694346133517000, -812051159771000,
    883553153296000, -904449702225000, 875834658132000, -803269018581000, 695546285962000,
    -563509250312000, 419112300517000, 143935745018000, -540893277128000, -274873153282000,
    -41744282295300],
    [108174897022000, -367400605899000, 683186806881000, 1287996174500000, -1505888003470000,
    1637956871590000, -1676140799730000, 1622580314640000, -1487682371690000, 1287811009970000,
    -1043084524920000, 775638475396000, 266304976097000, -1003606325720000, -508617894322000,
    -77229000359700],
    [201805253626000, -685345516814000, 1274223717080000, 2401180802840000, -2806593081930000,
    3051798239450000, -3121952418110000, 3021244837880000, -2769240062750000, 2396538538710000,
    -1940655593470000, 1442787490720000, 495231982313000, -1871465351300000, -945949168472000,
    -143609669766000],
    [378085907103000, -1283905277860000, 2386758470700000, 4495731917230000, -5253355708940000,
    5710648002650000, -5840149641780000, 5650060340480000, -5177303485720000, 4479339818010000,
    -3626425905970000, 2695566989330000, 925011744461000, -3504779438490000, -1767060043930000,
    -268223687272000],
    [710965349508000, -2414114337350000, 4487199128000000, 8448663366340000, -9869863043820000,
    10725983504900000, -10966021616400000, 10606028963600000, -9715922009950000,
    8403986581340000, -6802282972750000, 5055295951990000, 1734357631370000, -6587904280970000,
    -3313492206540000, -502880009315000]]

/-- `icoeffs<2,long double>`, generated_coeffs.hpp line 271; `extrapcoeffs<2,long double>`, generated_coeffs_co.hpp
line 91. -/
def gaussL2 : GTab where
  s := 2
  da := 34
  rows := [
    [2500000000000000000000000000000000, -386751345948128822545743902509787],
    [5386751345948128822545743902509790, 2500000000000000000000000000000000]]
  db := 1
  b := [
    5, 5]
  c := [
    2113248654051871177454256097490213, 7886751345948128822545743902509790]
  dq := 32
  q := [
    [-144337567297406441127287195125489, 265470053837925152901829756100391],
    [-176853598869462141624860782523333, 250218995346906875953341290652353]]

/-- `icoeffs<3,long double>`, generated_coeffs.hpp line 282; `extrapcoeffs<3,long double>`, generated_coeffs_co.hpp
line 97. -/
def gaussL3 : GTab where
  s := 3
  da := 35
  rows := [
    [13888888888888888888888888888888900, -3597666752493890345639547109660440,
    978944401530832604958004222947557],
    [30026319498086459243802494721315600, 22222222222222222222222222222222200,
    -2248541720308681466024716943537780],
    [26798833376246945172819773554830200, 48042111196938334790083991554104900,
    13888888888888888888888888888888900]]
  db := 307
  b := [
    2777777777777777777777777777777777777777777777777777777777777777777777777777777777777777777777777777777777777777777777777777777777777777777777777777777777777777777777777777777777777777777777777777777777777777777777777777777777777777777777777777777777777777777777777777777777777777777777777777777777777777778,
    4444444444444444444444444444444444444444444444444444444444444444444444444444444444444444444444444444444444444444444444444444444444444444444444444444444444444444444444444444444444444444444444444444444444444444444444444444444444444444444444444444444444444444444444444444444444444444444444444444444444444444444,
    2777777777777777777777777777777777777777777777777777777777777777777777777777777777777777777777777777777777777777777777777777777777777777777777777777777777777777777777777777777777777777777777777777777777777777777777777777777777777777777777777777777777777777777777777777777777777777777777777777777777777777778]
  c := [
    11270166537925831148207346002176017, 50000000000000000000000000000000020,
    88729833462074168851792653997824000]
  dq := 32
  q := [
    [100000000000000000000000000000000, -332379000772445013110755923986944,
    343649167310370844258963269989120],
    [164959666924148337703585307995648, -478568501158667519666133885980416,
    375514084041407928684859596988032],
    [294601792213815217620118779490752, -774471701776623530154738625169971,
    525791292600037724175496741484224]]

/-- `icoeffs<4,long double>`, generated_coeffs.hpp line 294; `extrapcoeffs<4,long double>`, generated_coeffs_co.hpp
line 103. -/
def gaussL4 : GTab where
  s := 4
  da := 35
  rows := [
    [8696371128436346434326598730549990, -2660418008499879331338513047695310,
    1262746268940472451505688057461810, -355514968579568315691098184956959],
    [18811811749986807165068554508717100, 16303628871563653565673401269450000,
    -2788042860247089522415110641899740, 673550059453815551539866908570376],
    [16719192197418877317113330552529600, 35395300603374396653761913180799800,
    16303628871563653565673401269450000, -1419069493114114296415357047617150],
    [17748257225452261184344295646056900, 31344511474186834679841114481438200,
    35267675751627186462685315586595300, 8696371128436346434326598730549990]]
  db := 307
  b := [
    1739274225687269286865319746109997036176743479169467702462646597593759337329551758609918838661290797548990519523817510772122211251629908904285121491608348124296432385221819599013166869759217993363234069631440146323419871999946106394206210691233975331271719538471006793957704766095937512965786146277614280411,
    3260725774312730713134680253890002963823256520830532297537353402406240662670448241390081161338709202451009480476182489227877788748370091095714878508391651875703567614778180400986833130240782006636765930368559853676580128000053893605793789308766024668728280461528993206042295233904062487034213853722385719588,
    3260725774312730713134680253890002963823256520830532297537353402406240662670448241390081161338709202451009480476182489227877788748370091095714878508391651875703567614778180400986833130240782006636765930368559853676580128000053893605793789308766024668728280461528993206042295233904062487034213853722385719589,
    1739274225687269286865319746109997036176743479169467702462646597593759337329551758609918838661290797548990519523817510772122211251629908904285121491608348124296432385221819599013166869759217993363234069631440146323419871999946106394206210691233975331271719538471006793957704766095937512965786146277614280411]
  c := [
    6943184420297371238802675555359531, 33000947820757186759866712044837736,
    66999052179242813240133287955162250, 93056815579702628761197324444640390]
  dq := 33
  q := [
    [-135307244904688787411431296975496, 1361400684654887336682923764224880,
    -3975449681975615268822294039379330, 3818788086428390431938828327683550],
    [-537612925375784480135853564851234, 3004041356710629372179167179845560,
    -6498905908664454420877313345332930, 4604319712027296248377251991011900],
    [-1637170318422457003543368030049390, 6847575756887155367265193483678210,
    -11924979686382967911744632713356900, 7122271778348867436217677833852150],
    [-4100298787217992257713406110817840, 14775159637019299834195120615268000,
    -22336564686497872990236177670372500, 11988707378080609634912719589287300]]

/-- `icoeffs<5,long double>`, generated_coeffs.hpp line 307; `extrapcoeffs<5,long double>`, generated_coeffs_co.hpp
line 109. -/
def gaussL5 : GTab where
  s := 5
  da := 35
  rows := [
    [5923172126404727187856601017997930, -1957036435907603749264321405088410,
    1125440081864295555271624421509070, 158811296786599853936524247059342,
    -559379366081218487681772196447593],
    [12815100567004528349616684832951400, 11965716762484161701032287870891000,
    -2459211461964220038931825168600400, -276899439876960304428263075887960,
    1031828067068335740895394505635580],
    [11377628800422460252874127381536600, 26000465168064151859240589518757400,
    14222222222222222222222222222222200, 468715452386994122839074654459310,
    -2069031643095828457176013776975490],
    [11687532956022854521776677788936500, 24490812891049541889746347938229500,
    27319004362580148889172820022935400, 5923172126404727187856601017997930,
    25888469960875927151328897146870300],
    [12123243692686414680141465111883800, 22899605457899987661169181236146300,
    30903655906408664483376269613044800, -968756314195073973903482796955514,
    11965716762484161701032287870891000]]
  db := 307
  b := [
    1184634425280945437571320203599586813216300011062070077914139441108586442015215492899967152469757223880545673040716627906313826942511840667659767896400087242787267677997923561060269100106932615429966725346009416978348146320955363536457524959211020974511812831134713995185082911486960583374788694003121486989,
    2393143352496832340206457574178190964561477766715707699863638336669191335762562284877810625308020553897232104737061149871463950835265937110118009881377690534990510099779854216717508677670845162347811052431768360799429631456822414241320252818566756803265964946643063782592694866290817194402989083774656290784,
    2844444444444444444444444444444444444444444444444444444444444444444444444444444444444444444444444444444444444444444444444444444444444444444444444444444444444444444444444444444444444444444444444444444444444444444444444444444444444444444444444444444444444444444444444444444444444444444444444444444444444444446,
    1184634425280945437571320203599586813216300011062070077914139441108586442015215492899967152469757223880545673040716627906313826942511840667659767896400087242787267677997923561060269100106932615429966725346009416978348146320955363536457524959211020974511812831134713995185082911486960583374788694003121486989,
    2393143352496832340206457574178190964561477766715707699863638336669191335762562284877810625308020553897232104737061149871463950835265937110118009881377690534990510099779854216717508677670845162347811052431768360799429631456822414241320252818566756803265964946643063782592694866290817194402989083774656290788]
  c := [
    4691007703066800360118656085030339, 23076534494715845448184278964989620,
    50000000000000000000000000000000020, 95308992296933199639881343914969630,
    76923465505284154551815721035010386]
  dq := 31
  q := [
    [-124080892450490375587308213492748, 332494963343543122595047165192804,
    -382237939376551451088552478458438, -50287306346566455778472741712722,
    234580275600371839895298134079607],
    [-229802116869279084515788861808107, 611304952922655617531320397240784,
    -697821321606709158906772005941420, -116080506013676378348468198236619,
    437879095113950800304828916374698],
    [-421725807054847527822486163824507, 1114737162352332546225735047185930,
    -1263921629769332629112555150089080, -225124628922089691017572401806333,
    799859687144913883505789216338612],
    [-770853906901439939750903731632864, 2027513328450479505359239072313180,
    -2287574134857673812077858159176370, -421641229898811247987888566088867,
    1455559096695965899860314945757730],
    [-1406521794691918437009166832718130, 3685743550057363359339849035226330,
    -4144831829842621267601001167863410, -780638446566238302686280263411386,
    2648763746363416101523339903188130]]

/-- `icoeffs<6,long double>`, generated_coeffs.hpp line 321; `extrapcoeffs<6,long double>`, generated_coeffs_co.hpp
line 115. -/
def gaussL6 : GTab where
  s := 6
  da := 35
  rows := [
    [4283112309479258626007403554318320, -1476372599719741247537259106052070,
    932505070647775119143888450800315, -566885804948351190092125641621651,
    285443331509933513092928583011602, -81278017126476211229913565156254],
    [9267349143037886318651229176332030, 9019039326203465189245837845942900,
    -2030010229323958595249408052427250, 1036315624024642373071994580656000,
    -488719292803767146341420376578964, 135556105548506177551787075080011],
    [8224792261284387380777165114112890, 19603216233324500605575978156380100,
    11697848364317276184746758599738800, -2048252774565609762985901186540060,
    798999189966233579720442148030827, -207562578486633419359528915758165],
    [8773787197445150671374336024394810, 17239079462440696798771233543855000,
    25443949503200162132479418386017600, 11697848364317276184746758599738800,
    -1565137580917570227084302464494330, 341432357674129871237641994523753],
    [8430668513410011074463020033556630, 18526797945210697524833096068464800,
    22359381104609909996421522618821600, 25425706957958510964742925251904800,
    9019039326203465189245837845942900, -701124524079369066636422067695387],
    [8647502636084993463244720673792900, 17752635320896996865398747108874200,
    23962582533582903559585642841099200, 22463191657986777250349628748677200,
    19514451252126671626028934797937900, 4283112309479258626007403554318320]]
  db := 308
  b := [
    8566224618958517252014807108636644676341125074202199119931771989947288027117007732396385271319433487605826103493720215459587358373108798731482461465901572422603356755458416054218589970338344360633462427849702407971466367851249202671691209118162205918730519560261955952209532993378216817826634236399948461046,
    18038078652406930378491675691885805583076094637337274114486962011857001891863085916048110099440967397155860457018539929493994513918216053538839360570429094610572513612628788855630003661844142958158014475559002587040684277353724123624305059162996572490860820121279338876919088319415021654678284651663242138830,
    23395696728634552369493517199477549740582780288460526765581265998195710081019906351555504629239599115238313439487739855046418127708675147729678177963669332966824129631912795090151406367817512681208523096591295004987849354795026673704003731718841221590408660318458705170871378687206761527495081111936809399980,
    23395696728634552369493517199477549740582780288460526765581265998195710081019906351555504629239599115238313439487739855046418127708675147729678177963669332966824129631912795090151406367817512681208523096591295004987849354795026673704003731718841221590408660318458705170871378687206761527495081111936809399930,
    18038078652406930378491675691885805583076094637337274114486962011857001891863085916048110099440967397155860457018539929493994513918216053538839360570429094610572513612628788855630003661844142958158014475559002587040684277353724123624305059162996572490860820121279338876919088319415021654678284651663242138920,
    8566224618958517252014807108636644676341125074202199119931771989947288027117007732396385271319433487605826103493720215459587358373108798731482461465901572422603356755458416054218589970338344360633462427849702407971466367851249202671691209118162205918730519560261955952209532993378216817826634236399948461044]
  c := [
    3376524289842398609384922275300262, 16939530676686774316930020249004727,
    38069040695840154568474913915964392, 61930959304159845431525086084035633,
    83060469323313225683069979750995343, 96623475710157601390615077724699720]
  dq := 33
  q := [
    [1496399067439311501708657431652210, -4951809352081802351439469909689110,
    8167371885794226438809602625951510, -7440126821608951772074020843543090,
    1317730614306548152593910597782650, 2444199849049092016495169320598830],
    [3468858051245279989125898809766240, -10978074798216848204524938749719100,
    16559516123558104094318956769842100, -13675488760536848794382258299265900,
    2903113112097347208204315376897840, 2256411560565384479064521598343940],
    [7115118358670935890053600907929460, -21645634934566690072934451801401300,
    30255592494249791218885306979334500, -22341624011336687162947060143548400,
    3473558413173241756914840215422900, 3511241179492737103386099599593030],
    [13535159887320490720613085182198500, -39661723180339821769807367007874700,
    51470491880403281555636702845188700, -33042720378664116453480260176858200,
    857972597257570309916028931380322, 7126333394785979560849010845182000],
    [24234287613492246862384585885407400, -68298636147016022707910402439764900,
    81508471648209578888872761598454700, -42120564201540148674230591168735200,
    -11045005701124397926719557943025600, 15957570513661230735992802470493100],
    [40959317278571358691712019302869000, -110308373491478239521311464963708000,
    117679699400637902139903279302536000, -37719802331264240611505229815759600,
    -46786406984823244470878354282067500, 36378979878884994765387093033226700]]

/-- `icoeffs<7,long double>`, generated_coeffs.hpp line 336; `extrapcoeffs<7,long double>`, generated_coeffs_co.hpp
line 121. -/
def gaussL7 : GTab where
  s := 7
  da := 36
  rows := [
    [32371241542217423317652858169770500, -11451017283183870288164582473145900,
    7633203872423544925846644221635650, -5133733563225344981956297582339130,
    3175058773685637636834317301994700, -1606819037046105855606101283476430,
    458109523749452982298319621634935],
    [70043541378726076272981453606589700, 69926347872319166975366942855944900,
    -16590006578847771164469906137332800, 9349622783443332076311077667929380,
    -5397091931896137854621201772420700, 2645843866730037379830312955794460,
    -743850190171923617331065816899149],
    [62153935787349864535878929129353000, 152005522057830992561321708847833000,
    95457512626279736237592443872243800, -18375244215451837389204600727175300,
    8712562598475181983783694755749520, -3953580158810438120880528566673130,
    1076715615627916738205146650188810],
    [66332928617684700552132262041314300, 133595769223882288417924053929659000,
    207701880765970782089300497781520000, 104489795918367346938775510204082000,
    -16786855513411309614115610037032800, 6256926520756045532809831782230920,
    -1590445533249853916826545701773270],
    [63665767468806929897100569689352200, 143806275903448772071614414278563000,
    182202462654084290491401192988738000, 227354836052186531266755621135339000,
    95457512626279736237592443872243800, -12152826313192658610587823135942800,
    2588547297084982099426787210188040],
    [65486333274606770252636782156440200, 137206851877908296570903572756095000,
    196312117184455610329806089516908000, 199629969053291361801239942740234000,
    207505031831407243639654793881820000, 69926347872319166975366942855944900,
    -5301058294291229637675737267048670],
    [64284373560685393653007396717906100, 141459514781684439806339986995366000,
    187739966478873834838350570442493000, 214113325399960038859507317990502000,
    183281821380135927549338243522852000, 151303713027822204238898468185036000,
    32371241542217423317652858169770500]]
  db := 308
  b := [
    6474248308443484663530571633954100916429370112997333198860431936232761748602115435781270908146042254474220100081721394053267244690945223132481735399963051892701205815645879446846948686831625869354268147689681310258033921680931826682680405544866030630933618429798268329896388687424464087706025693979688590650,
    13985269574463833395073388571188979124346253261329938226850701634680940521528133840662047145059880938316168760668602575956781848978155997218567632890616842727817960126684545963215974167512466741339546398214311510540780103108464024448338141541070836003691827769948310599862513750047102309416201989155641328960,
    19091502525255947247518488774448756693918254176693136737554172551535277321706485417434232967202240072515733588229267866724644783881919187812215937831869084971317568751547125610345240410962029838285777290830701056752206383373869454991430432505899868059252104820661584335547220011508025439612466194415690489300,
    20897959183673469387755102040816326530612244897959183673469387755102040816326530612244897959183673469387755102040816326530612244897959183673469387755102040816326530612244897959183673469387755102040816326530612244897959183673469387755102040816326530612244897959183673469387755102040816326530612244897959183610,
    19091502525255947247518488774448756693918254176693136737554172551535277321706485417434232967202240072515733588229267866724644783881919187812215937831869084971317568751547125610345240410962029838285777290830701056752206383373869454991430432505899868059252104820661584335547220011508025439612466194415690489140,
    13985269574463833395073388571188979124346253261329938226850701634680940521528133840662047145059880938316168760668602575956781848978155997218567632890616842727817960126684545963215974167512466741339546398214311510540780103108464024448338141541070836003691827769948310599862513750047102309416201989155641328770,
    6474248308443484663530571633954100916429370112997333198860431936232761748602115435781270908146042254474220100081721394053267244690945223132481735399963051892701205815645879446846948686831625869354268147689681310258033921680931826682680405544866030630933618429798268329896388687424464087706025693979688590471]
  c := [
    25446043828620737736905157976074325, 129234407200302780068067613359605791,
    297077424311301416546696793961519700, 500000000000000000000000000000000150,
    702922575688698583453303206038481240, 870765592799697219931932386640393430,
    974553956171379262263094842023925600]
  dq := 33
  q := [
    [-1911201878407061480593431533396190, 6656527591909470979261826076558440,
    -12729216864869498466276473137972800, 18117620264919597458710579161195300,
    -17461673379092663435373054820387700, 7960986716276925043688962670369050,
    392403593091850638318496741609958],
    [-5198658357274330584410289373379610, 17786325987599746550668155349838700,
    -32509339334788297813664446730293300, 42618349871416291475091970744782200,
    -37964237256477443875482175286790900, 18168228316185640429740091006926800,
    -2374899432259721400439949378267190],
    [-12692458212309356308750151540105700, 42522246348169954405561658756043200,
    -74518286233995255441515348791832000, 91724185108363357360798503056639600,
    -76786948259949443244182040330581000, 36477922393085398543032999827287200,
    -6367228772941988611044549605486620],
    [-28801621391706113805339045289108900, 94584557949298595587588048769228700,
    -159757941566257764882047123910280000, 186855037156516665445560863605916000,
    -148584647226412484336661254556154000, 69027658294781829570286417441023800,
    -13046609339515327385660885344194200],
    [-61849646748908391974073466285376500, 199450073684103533001519499240391000,
    -326127694831069676842085164319705000, 365115860088233912284775986636401000,
    -277225297295451381351587775194686000, 124642877080461840288276012062188000,
    -23779397557171626328233165574545500],
    [-127150589513851883135544067747503000, 403254742674680672031828264052813000,
    -640329586138398034934086416724497000, 688994905272083876945019711555962000,
    -500006854822796777795114554277379000, 214902196977754856228751627384792000,
    -39471027006111223705276842544014800],
    [-252155218350409524792213670733784000, 787350624132017907905283699702557000,
    -1216367420447472762546458811982310000, 1259723961091818524820644045504870000,
    -871096011390937797024743593539612000, 351306654629544856924200356477215000,
    -58592259464156606694237575982307000]]

/-- `icoeffs<8,long double>`, generated_coeffs.hpp line 352; `extrapcoeffs<8,long double>`, generated_coeffs_co.hpp
line 127. -/
def gaussL8 : GTab where
  s := 8
  da := 36
  rows := [
    [25307134072594064788132838577490500, -9105943305970075021363652104664350,
    6280831147030473980609420737807600, -4483015613054751441913314235301550,
    3078491368326779889853830649117110, -1917675254636952340925635119494440,
    972757664059263526724523824088790, -277508327116919222898446613780209],
    [54759321767554320283190797385002300, 55595258613343617636088998606560200,
    -13639796235781669253030662069976100, 8149708858360550536040427483729160,
    -5215352089147153380243369774637650, 3139752985463668942345006901156270,
    -1564934910948942375795111404430430, 442802304342237815626944634681052],
    [48587535998912880943160147347438900, 120859524997173167441653743003485000,
    78426661469471821834490550496650300, -15975103361878431475670113855696500,
    8371732720226163786910322064390610, -4643465862104479790126170070244730,
    2225714775284899718315301407893180, -618805695250515367603304988539769],
    [51865520970581234565312077964966900, 106193490148348406878869450082582000,
    170671134274553621284710784603994000, 90670945844590495741287612319298900,
    -16021041321025013168705217793800800, 7241206561222269861803063014938810,
    -3197814310360770322482743095420930, 859236584264852689466901723348634],
    [49755031560923276886798775431632500, 114388331537048005594660740308541000,
    149612116377721373807178037978362000, 197362933010206004651280442432399000,
    90670945844590495741287612319298900, -13817811335609977615729683610693400,
    4997027078338828393308547130538030, -1251252825393104989046400809985830],
    [51233073840438644943868982143520900, 108964802451402335553862695805227000,
    161496788801048123459107271063545000, 172970158968954827695664902574207000,
    197316995051059422958245338494294000, 78426661469471821834490550496650300,
    -9669007770485932169475745790364410, 2026732146275248633105529807542240],
    [50171465840845891760638732520300000, 112755452137636177647973108617551000,
    153713569953479974726636094092144000, 186557243778328144862818594413235000,
    173192182830820440946534797154869000, 170493119174725312922011763063277000,
    55595258613343617636088998606560200, -4145053622366190706925120230021150],
    [50891776472305048799164123768761300, 110217759562627971745453473389032000,
    158770998193580596009906736112795000, 178263400320854211592721393989481000,
    185824907302235742924488538873899000, 150572491791913169688371680255493000,
    120296460532657310293541649317785000, 25307134072594064788132838577490500]]
  db := 308
  b := [
    5061426814518812957626567715498109505769704552584247852950184903237008938173539243014136965202250327907719466570663335385774701544617438393659865205680367923452666044120253659881532878646027339807178897337762461643650275129964770449733384052554053647341832332928873251786613012628524848232621159535553923686,
    11119051722668723527217799721312044221506543502562478236295464464680840728522452042682657118859896392107963305060610906155571878992628612096909133372660452889543066447684202013946993244380021928486010787410316266235977951143157853256599827948667727203029764099403358083227951680417359561778496762849422445130,
    15685332293894364366898110099330065663016449950136746884513197253747813597108674848084903811696427802471378732053890430812362341613278080284453121382348794973112515593882812797316436110107602158132338973608019113006476384493262548615925789991765780312098758684862802119928548170665432495070562586077212719980,
    18134189168918099148257522463859780609707301994716527026241153378334336736195333866218302104241425477512938496314835327646291077849475869224977880039310384213891751914312731528855037766866348573574471341643902159113895389233614827677740998007012438837529644882804966545056887136288683094918319491537810910840,
    18134189168918099148257522463859780609707301994716527026241153378334336736195333866218302104241425477512938496314835327646291077849475869224977880039310384213891751914312731528855037766866348573574471341643902159113895389233614827677740998007012438837529644882804966545056887136288683094918319491537810909830,
    15685332293894364366898110099330065663016449950136746884513197253747813597108674848084903811696427802471378732053890430812362341613278080284453121382348794973112515593882812797316436110107602158132338973608019113006476384493262548615925789991765780312098758684862802119928548170665432495070562586077212719460,
    11119051722668723527217799721312044221506543502562478236295464464680840728522452042682657118859896392107963305060610906155571878992628612096909133372660452889543066447684202013946993244380021928486010787410316266235977951143157853256599827948667727203029764099403358083227951680417359561778496762849422445310,
    5061426814518812957626567715498109505769704552584247852950184903237008938173539243014136965202250327907719466570663335385774701544617438393659865205680367923452666044120253659881532878646027339807178897337762461643650275129964770449733384052554053647341832332928873251786613012628524848232621159535553923785]
  c := [
    19855071751231884158219565715263451, 101666761293186630204223031762084802,
    237233795041835507091130475405376991, 408282678752175097530261928819907514,
    591717321247824902469738071180092200, 762766204958164492908869524594622030,
    898333238706813369795776968237915050, 980144928248768115841780434284736800]
  dq := 32
  q := [
    [189420696335189271657828654653861, -674595407993036488209951062870800,
    1361743138793504180409365499081160, -2213255314902837954368684449530010,
    3013546960180196585020348897564720, -3005356028461224359405361151650280,
    1678135646465083724550034552497180, -247654183241751771237758983174295],
    [553044980216853652419590406662562, -1971238025507512638364878992962280,
    3945523068418913805686211872161730, -6182028074783712816019117436996490,
    7791625497782292110764933319165340, -7191708657160998595331993352438950,
    4056055066137022094436949042853520, -949268636734022096857912912214024],
    [1536365886803780070709236950846340, -5412300233302624071413469116443960,
    10551141808560919601198250971882700, -15782974227490569613685053142209300,
    18658323952528708553036728255276900, -16250835836930667057051547486844300,
    9065001509754127207443343567321290, -2329364336116349871379401446456740],
    [4003126263504878271691130690685260, -13896309171774930395567934032739500,
    26331089832509897010971481324619600, -37748515722571135171078866266853300,
    42396191965389950536529631030856200, -35332079977999134081891867059722900,
    19447204137216519193903149181062600, -5173661898900142694118668922300460],
    [9830826100192795015898599592671120, -33641004508801941488044028664826800,
    62100261650050320441187086128861700, -85838310494999445615501695780003200,
    92500618174254513326795698967111200, -74449692414351030218717315180874300,
    40438195944466913081502776390345300, -10918828517790529383909796011207300],
    [22968525606039016899585498955100500, -77580507980791041569181309043684200,
    139949183211132587677399424419371000, -187532610048063117680663992102973000,
    195309767698607603208624092346102000, -152759865050750421049019808417344000,
    81907348082366501402391976979962100, -22243088140453631549077345953856100],
    [51501954266777225858589486671845600, -171944701491993249769633859315472000,
    303971234666054242403153643714144000, -396604428445512004427301545883963000,
    401290466143223379746541841606209000, -306261683487494962501114632454293000,
    162113250704375359254959145124682000, -44049698874497131211326040025252800],
    [111620019081785447632171833140071000, -368802824601219497787439701475620000,
    640457927458974619584256433769973000, -816393419172268862194770757436753000,
    805510446748427746148256560561915000, -601438469250793627714333948880182000,
    314179531687395626580896621586568000, -85118582849462547736913484909167100]]

/-- `icoeffs<9,long double>`, generated_coeffs.hpp line 369; `extrapcoeffs<9,long double>`, generated_coeffs_co.hpp
line 133. -/
def gaussL9 : GTab where
  s := 9
  da := 36
  rows := [
    [20318597090393602992973039527630900, -7397868566148786865424895030863240,
    5222003592100053891855843605647440, -3873451291744980550495378873389930,
    2831369450069839863549370123637090, 1226609788812560748394662844626530,
    -622964091648914481159571486571450, 177778462744798652780015293222430,
    -1962194188391219170261187455776220],
    [43965527226528404158541264564508700, 45162040173714351014618007810728200,
    -11335464012335047046592546481431900, 7034766801734681439036958142269450,
    -4788276131016640294459450686154720, -1964405739953508617100118198533500,
    987172103665947150853208009195396, -280274237640940717284308546381075,
    3203360151984855762672091350932050],
    [39008653396284333705340626055185000, 98181511959848158560297201279566100,
    65152674100733865579685717354658200, -13770833986608572198870637724996600,
    7664175624642138642252070925047040, 2770828892759019816067198814433060,
    -1361671983073003880772942362269890, 382532112918055676721205511905614,
    -4713586467799194555071459524265650],
    [41645087027322808568459095799521600, 86255472772503776607134117064743100,
    141795216041145464700711349265044000, 78086769260000710017157601646110900,
    -14618957875912557428631373858981500, -3932839915038731281873983056217360,
    1852686200822523948497835253338880, -510573474928686025187960892672731,
    7300428262180226374464311457444700],
    [39940372869834743320397429937842700, 92943372272717086974769562013078800,
    124257110410775669930284959188188000, 170000445255253483576298037267459000,
    82559838750314940791131267321743500, 6048237790692061229086475521128290,
    -2619291925288384945533546391622380, 696821310952462665548649117419158,
    -13826906735252063541982833975237300],
    [40254662067869150309224873543356200, 91685752330501705910008957983726300,
    127534519308708711343304235894883000, 160887124987800614589386662816487000,
    157455501875987742940010463718440000, 65152674100733865579685717354658200,
    -7857431612419456531061185658109660, 1628540784502872280605453000076800,
    169944372506609992233185841017218000],
    [40917468418428146703230387601642900, 89336908243762754878382807612261000,
    132269753941421239776471552907850000, 152970178368016564271643111941290000,
    169907953631646521876721985329642000, 141640812213802778205963981190748000,
    45162040173714351014618007810728200, -3328333045741198172595185509246870,
    149138771718266738595278245149952000],
    [40459415718042407333166063762039400, 90947044439077616510395587108027900,
    129078738412655170410976771864690000, 158135732708392639204576390747998000,
    162288308050560041718713164519850000, 125083344609367677267515591103669000,
    97721948913577488894660910652319700, 20318597090393602992973039527630900,
    160046989811746400584810582165612000],
    [41147767655715892011134039947934600, 88471394146606178080738180368117500,
    134238188116506462441245417765534000, 148873110257821193659850891834777000,
    179738635376542439010893908502469000, -11489867839677733541339914555727700,
    4068607574924925422101898556713290, -1007892846535602582513016744259780,
    78086769260000710017157601646110900]]
  db := 308
  b := [
    4063719418078720598594607905526182533783086039120537535555383844034334315422603147278927735147128847889703665898151904729502439754697787976407068942237542688366698617478375366227906396906693415083369757862294840130561736984781583600166733738331829648764956763754215572385368484367608685041062300929274958263,
    9032408034742870202923601562145640475716891086602024224916795323567864527247313488229748865159985207380373398012889686133981342303150636158950504023727886874064869824341393527781852161444302385742696151645127705510991092406069950287067474000326174379041199841004356361185802976382450506817270969271951353767,
    13030534820146773115937143470931642488592010221864997596999850105980540783444562232382304654750870091369369276781882525665920191191791343535146493413515808835354264134122411868483669835624673656375618794710163726589464724897262081654003441959642881191153840622368326560969933777484486547828898741111911885990,
    15617353852000142003431520329222183279937743063095232277700558279957194866200965828506096094400317692614773865908234865581959090494376357298001854507392029427862945453788229920298206778611884082732807611227110124846331904013725638678968951460681226144103746788998070011379781635033279909090797719097544602370,
    16511967750062988158226253464348702443940539178634416729654824892920131015369110607205845301083396321491559586797682035777273872511967750062988158226253464348702443940539178634416729654824892920131015369110607205845301083396321491559586797682035777273872511967750062988158226253464348702443940539178634419120,
    13030534820146773115937143470931642488592010221864997596999850105980540783444562232382304654750870091369369276781882525665920191191791343535146493413515808835354264134122411868483669835624673656375618794710163726589464724897262081654003441959642881191153840622368326560969933777484486547828898741111911888320,
    9032408034742870202923601562145640475716891086602024224916795323567864527247313488229748865159985207380373398012889686133981342303150636158950504023727886874064869824341393527781852161444302385742696151645127705510991092406069950287067474000326174379041199841004356361185802976382450506817270969271951353150,
    4063719418078720598594607905526182533783086039120537535555383844034334315422603147278927735147128847889703665898151904729502439754697787976407068942237542688366698617478375366227906396906693415083369757862294840130561736984781583600166733738331829648764956763754215572385368484367608685041062300929274958472,
    15617353852000142003431520329222183279937743063095232277700558279957194866200965828506096094400317692614773865908234865581959090494376357298001854507392029427862945453788229920298206778611884082732807611227110124846331904013725638678968951460681226144103746788998070011379781635033279909090797719097544591230]
  c := [
    15919880246186955082211898548163550, 81984446336682102850285105965132601,
    193314283649704801345648980329262874, 337873288298095535480730992678331589,
    499999999999999999999999999999999768, 806685716350295198654351019670735840,
    918015553663317897149714894034867230, 984080119753813044917788101451836900,
    662126711701904464519269007321668810]
  dq := 30
  q := [
    [-1122378533378685132889071076455260, 3472687543179208710353723987171320,
    -5504458575879373964030552633492570, 6520156831253664593361035907393860,
    -6431974815473779910621938254591550, -3953506216726414798667074907860920,
    2206963347116611492386138129255240, -660403803910164190253513614032616,
    5473930143699179387316334674511050],
    [-1914777866098973480695005674612420, 5932534505240172516204041729088040,
    -9428919451064860559574731135933220, 11216074850592762117699446552038500,
    -11125879899702702758028301814120300, -6912008108774888541354490864631540,
    3871706719222560120316940914158440, -1162480899339619364526383485096720,
    9524266196527089663380378769219740],
    [-3274830301006046896459010783006300, 10163879624871609809595546053078200,
    -16207695080932652279499589226403300, 19376302915250796437926845739858800,
    -19340654996711095056673750891275600, -12151013656871775763401355872053600,
    6829038997338753404518012971644520, -2055080982745677937908002816342890,
    16660402988807180066845517846670500],
    [-5619524929135341383808284737721580, 17477696953929231674678423392728600,
    -27980878111181252673695179862341100, 33643742088983961862408065874548300,
    -33812437916300105206504027691337200, -21491744242928783107579602023055800,
    12118710886826351413298727990210700, -3654132349675763927364544809584140,
    29318833923576662036321479134380900],
    [-9683027787417227834494628493038910, 30191098481339551684383137976480100,
    -48555862049277607781349478699355200, 58758762120131160594136136581866200,
    -59488540063180691789393962602453000, -38262862585043814742186261311253600,
    21645719528986462552629852457478000, -6538688787699506932015871191629560,
    51933617577061083473173554917789300],
    [-16768277509543725777937673764271200, 52433053060726959529052990307626200,
    -84762943621988276653976310137184600, 103294652424145919875800996872518000,
    -105386284585534603977922480209642000, -68592131372129972529217053696024100,
    38924889136127487361226783558563400, -11778233129464380953205772995286100,
    92635458831424833888897154070106000],
    [-29207222398912597832816932353416300, 91624221983862485190010193144298000,
    -148960586247857636814125942941953000, 182886590426046587476998603317927000,
    -188071357300443331412811009728509000, -123838091089782143371756533222059000,
    70484023718923598826295023228244500, -21360874719065585389672247793034100,
    166443455185077615785348597621765000],
    [-51210231715604932995243753391572200, 161218510225010765418006721443706000,
    -263703274242517254966817271494801000, 326284408454062978778420779941379000,
    -338210338806811977476895279565946000, -225193491246412638640223756123770000,
    128522371261141512706899001074278000, -39004863366245158745155183380024800,
    301297051273118691583011497017185000],
    [-90447262801900969379539450346207500, 285824206502260230485150510192373000,
    -470505856564211773755570665568190000, 586777442858425078030572164964192000,
    -612990305674500963362393216828098000, -412443878277218098880475480310091000,
    235971359584509805484130827900914000, -71703722537928342322529855993356000,
    549518144993898378325377833743447000]]

/-- `icoeffs<10,long double>`, generated_coeffs.hpp line 387; `extrapcoeffs<10,long double>`, generated_coeffs_co.hpp
line 139. -/
def gaussL10 : GTab where
  s := 10
  da := 36
  rows := [
    [16667836077172034398392202473332900, -6120680292335029870253089879066190,
    4392003730288522216986145538877940, -3345350508825494708708881761330720,
    2547568970278763549049622257381700, -1882620386935256610852077910568270,
    1310814627703083918428327884197970, -820986353138291127367521983463229,
    417243835667835720457601113273652, -119093958462027525114333774861831],
    [36066152578194330450696786861596700, 37362837287645148286444084914424300,
    -9531373591889659452607571839136810, 6072284461743922184894289980196160,
    -4304045812959392009075632709111490, 3068518610867535586953847164401830,
    -2094113957450322848315747892582040, 1296249655498199633314444994182010,
    -654328115142468560893715735581344, 186135539000451362540870049864093],
    [31999117977514610193989845382253400, 81227570111860772851546067918131900,
    54771590628995510998883733557040800, -11877612891529426482428201092247600,
    6878146397707144783858006066310690, -4502743296861852416071469705647580,
    2940873331413949526349630144598780, -1776133746574100744503126513939220,
    884246091931209019529692891224078, -249838753970020848317861205161996],
    [34163992179108709031938887963118600, 71355369074635557884829663881334700,
    119207290548758140477788951389364000, 67316679827499088772806730392367300,
    -13096519547196899758787624297692400, 6948865983835390310627315002300800,
    -4148453527231695087791334172556120, 2392814241770356540405957672594660,
    -1162297951332426431619189816845380, 324562105530182860167670403121262],
    [32760931291284437313506155589416200, 76902299703648435943661360876834900,
    104444079563094207185198585546974000, 146566245550415954620379616976850000,
    73881056178688217543473248662834600, -13112209169585375239041976931555400,
    6331455054820683800267096714424900, -3338100797675275601948001634583980,
    1551799168851436342521351785521010, -424726034358327350430438151576489],
    [33760398188702396147214843098242400, 73173875406438860230366818043327700,
    112881282055666297599715468748666000, 128301904600177493745346364070310000,
    160874321526961810325988474257225000, 73881056178688217543473248662834600,
    -11932885895417777074766156192115700, 5099101694896814812568881567107690,
    -2176625128358139370773191047986240, 574740863059631483278249357249694],
    [33011110048813885936616734543544600, 75887972526622723004507359645694000,
    107150367016220665457361509441487000, 138781813182229872633404794957291000,
    140813246373541044776319182323368000, 160858631904573334845734121623362000,
    67316679827499088772806730392367300, -9664109290767118480021484275282830,
    3370305500654738688058505947513990, -828320024764640235154483016452740],
    [33585510908314089645102266151827900, 73841428483359087553358476937624600,
    111319315004565122742270593628021000, 131692486323584228019263830640136000,
    152264855654238287503017967031317000, 140883965959669290303088491259358000,
    146510972546527604028041661876982000, 54771590628995510998883733557040800,
    -6501895536570476278657898089283200, 1336554176829458602794559564412490],
    [33149536615343617434243534896801800, 75380002690432765133781885564430000,
    108246931602492822364453022119900000, 136727473612448500393929208677317000,
    144693593746508899499992650161267000, 152066158170335827096022130034781000,
    128561075193254255360719170804539000, 119074554849880681450375038953218000,
    37362837287645148286444084914424300, -2730480423850261653912381914930830],
    [33454766112806096321898738721527700, 74308430739622460852430568715575000,
    110364167611129313125134989097545000, 133322545027295093627185132900537000,
    149644732744311691697798575236237000, 145214543387097671537896875068287000,
    137978710163823672254322342546065000, 105151177527702499780781321575204000,
    80846354867625326443141259707914900, 16667836077172034398392202473332900]]
  db := 308
  b := [
    3333567215434406879678440494666589642893241716007907256434744080670603204204355088839275484252943891054502735726020966574375356312720188106965249365849702081724768185320009350562115775219676312122531491635909935932374028302205893104323922461818927859035878460414751305255764407014926276161421599489689192214,
    7472567457529029657288816982884866620127831983471368391773863437661932736331500547297363231736597595700287628052271816911722585337274880073568580059685547643990674144325593854767832198196668869699546008451023245419078093895787612891501717138926808784638210643962061414850750862954215051853862410493213795469,
    10954318125799102199776746711408159622938593526133854494047827181759995532647564062134199658860109639329560843640644381738331345403347378441546059216583283385526349576610387683863264133355139391234255051044160866600321367416273781253342079426747103558067051136457827388844641566503443270724984473101047431260,
    13463335965499817754561346078473467642987996923044189790028163812107671615958963838211331835462638037779790572518434915434646173469057262077823294233172118558280072161299800708645222640151722056489514885335712687674031423041996382875034558433749214070431444342666040210752097544409581768303092542271043841690,
    14776211235737643508694649732566916471052335851342680067715401487799796910857616463517829789687710836135858220062627919340924539477600291300096817124709348330478135932444208402161565253076793370454152563533193264374195087343736329875797722538757945727827415416499319680296745619117833632956638974645005665810,
    14776211235737643508694649732566916471052335851342680067715401487799796910857616463517829789687710836135858220062627919340924539477600291300096817124709348330478135932444208402161565253076793370454152563533193264374195087343736329875797722538757945727827415416499319680296745619117833632956638974645005711590,
    13463335965499817754561346078473467642987996923044189790028163812107671615958963838211331835462638037779790572518434915434646173469057262077823294233172118558280072161299800708645222640151722056489514885335712687674031423041996382875034558433749214070431444342666040210752097544409581768303092542271043874580,
    10954318125799102199776746711408159622938593526133854494047827181759995532647564062134199658860109639329560843640644381738331345403347378441546059216583283385526349576610387683863264133355139391234255051044160866600321367416273781253342079426747103558067051136457827388844641566503443270724984473101047452610,
    7472567457529029657288816982884866620127831983471368391773863437661932736331500547297363231736597595700287628052271816911722585337274880073568580059685547643990674144325593854767832198196668869699546008451023245419078093895787612891501717138926808784638210643962061414850750862954215051853862410493213757273,
    3333567215434406879678440494666589642893241716007907256434744080670603204204355088839275484252943891054502735726020966574375356312720188106965249365849702081724768185320009350562115775219676312122531491635909935932374028302205893104323922461818927859035878460414751305255764407014926276161421599489689198219]
  c := [
    13046735741414139961017993957773922, 67468316655507744633951655788253409,
    160295215850487796882836317442563252, 283302302935376404600367028417107422,
    425562830509184394557586999435139741, 574437169490815605442413000564861144,
    716697697064623595399632971582892320, 839704784149512203117163682557436590,
    932531683344492255366048344211747270, 986953264258585860038982006042225500]
  dq := 32
  q := [
    [30866349896163102603188186524203, -129519460573904943059833301204681,
    336383134544788852438529409244359, -746704170044427746933960115448499,
    1514374357569462481896346354491270, -2811493918875915563390078160761860,
    4472731202435302869164031101236340, -5154688738051661489611871506772840,
    3481752426820224782694174104429430, -892396510145890931804424272341933],
    [-152106932316001656932644627222569, 414309699845371759042237492965208,
    -367385821192568772370895218239498, -525448732421518124189362989691954,
    2895742031998449394287576853332440, -6971580240267659049967639456663900,
    11380892582472195972182433910280700, -12565039250235126141769011515646800,
    8433624345336814099549137974562490, -2491694498780140751177313446723850],
    [-526633494681142659471648119129946, 1403685895753091570224816049228770,
    -1150482201607150323077166409233020, -1918370581429134838366873433840990,
    9264648926492573500520483967868680, -20380590138186008090553816039672200,
    30409673746883801474089135595422200, -31308469741574470164969074509660200,
    20484096582599315581237341919424300, -6242903891586040408651899551498180],
    [-846011269871093486352194047763295, 1647020238619497952077664020148670,
    1392650768417275369157654706660950, -12339719457024612551924317088271900,
    33507569420497765306133931238297200, -61023931830746966636993508593395100,
    81428983254127742668584897243150800, -78203966312560124051903424816802000,
    49722285008970027204961770086005800, -15258549391455965277333537106070700],
    [285784472550783551917547849417534, -4387536963395612952105920349755560,
    20098758263596995558002090586034500, -55478286535774373753063662374648300,
    112085134677455923251668003085761000, -175545047972129367083603615962384000,
    212977846410861009094504171277803000, -192832159817453391748064265601582000,
    119424411089397690238278884452828000, -36607564461011798212005242465588500],
    [7774161814750563377529605804823370, -35000229101029323394434467088480400,
    94082359630596344632825009858733700, -197778018208407358392101455031970000,
    340101353213078732973952488829011000, -478703644976452766628704488351170000,
    539440129008342807746359827290781000, -465888336489919222727529221280239000,
    282143834788203439830286633420178000, -86153595037052562943010567613253900],
    [36049291331404351104081365007551500, -142392811399765419831489307341748000,
    329903903312874653623889348398743000, -611210164140015418317892897524908000,
    951930549545402670297476096790194000, -1241653428762409077896214544432560000,
    1322433658734053922243738071792470000, -1100328367841455567914406167485300000,
    654099445560036367116052969209892000, -198816433762081553280799483059560000],
    [123584509505230268338200809262116000, -463076915849990167661402604148850000,
    997927495264787796926807251645398000, -1716867737113095677084139193244940000,
    2501342352446420241885684029155940000, -3084945479478187746169818345998810000,
    3145666051048009635650672331807690000, -2541125638944912693439516765995640000,
    1487627873636218653287156324027320000, -450118644684681692197554071357729000],
    [366576412838323097308358700204842000, -1333761685792165871151055691667960000,
    2750618664434753310788201924216840000, -4504450263828513412585266431833400000,
    6254721885024588619478754074960280000, -7392492864597279808229824978661170000,
    7284562227241253752832229126517600000, -5746721998433865870434229682111260000,
    3321816373808803975576331873500580000, -1000856264710461493538327412358950000],
    [994744870156147099682116899706432000, -3550293010508627284760654501717370000,
    7104571712279823986636920771227740000, -11227400515521646919574576455229800000,
    15033318555440629257211947824647500000, -17185248729679682200868490543183300000,
    16476795659684018504471021726684600000, -12749831989878713075474166393984100000,
    7292003492278321791398320070696310000, -2188648660252161275984783751619250000]]

/-- `icoeffs<11,long double>`, generated_coeffs.hpp line 406; `extrapcoeffs<11,long double>`, generated_coeffs_co.hpp
line 145. -/
def gaussL11 : GTab where
  s := 11
  da := 37
  rows := [
    [139171417790434166206884301106371000, -51432556298349055394548267272918400,
    37356037491408501872513147043906500, -29003790513831500378182807085037900,
    22727421526499853766960079767586800, -17524011626408274270234695709425300,
    13024891173182292718337657652735000, -9092796577116406510572299858743000,
    5701360622834443163559895980628380, -2898753249784820384379928537652530,
    827488930845835189972911298261979],
    [301142391948244556850291647703452000, 313950923662261561586735748059850000,
    -81056269790798441150903876187471600, 52628212735350150719411857164587400,
    -38374366816924275936341381937303200, 28535467644774986020978807121823900,
    -20778329171463464952915504204504500, 14326778128765731327775944523430600,
    -8914667119881454019944990203866260, 4511849309160691717352738636999480,
    -1284989369966537538229837196634340],
    [267179838502661811451222492270490000, 682542809171542158094247997671962000,
    465725527319335628565244103579140000, -102895248152872145428450144855953000,
    61266732476695373287251825474862100, -41805375370486407357728317038316300,
    29106679541045777501263054361608400, -19557398750909794191823801579311400,
    11982165650735221604639608824030800, -6009479429950453664673778759744330,
    1703721171956209671725699895463590],
    [285266689062404033539906138636098000, 599560307356048885110634313934399000,
    1013650411535705919502310260084820000, 582984411479976199796309262107938000,
    -116536925866713892045122531529432000, 64383812978048333085754840461823600,
    -40916486527815450432809768823283800, 26206189057208632391962793549475200,
    -15623710800670055165247656606992100, 7715309600151767480203738694009510,
    -2170653908403452892529737801901600],
    [273528599993796140716452683309802000, 646238924302517439343240111126972000,
    888021849343891269062705363844844000, 1269375270924847293293955933588490000,
    657011361275616655451722174726273000, -121240615804220011533673101424194000,
    62192625742500190897993936915686800, -36306333838632411252309367566391800,
    20632403755468436332831846730061700, -9928862756458345111673612819965320,
    2758997298948481141094104564115190],
    [281917210618671959125369757792893000, 614771890632044979378652513022305000,
    959986109028957617417890032486379000, 1110957743163701677369656598319430000,
    1430767523070427794129139050651010000, 682312716944751576786208820840855000,
    -116744800519194483225694701198462000, 55011079796250722222961925896443200,
    -28535054390286360287401825328100100, 13129956692478143794818983097395900,
    -3574375037803626711601155580149990],
    [275583838281919851272674497648628000, 637830710080981468285145108939666000,
    910818650883202820797656360428218000, 1202275156798584810844927891782270000,
    1251830096808733120005450412536860000, 1485866049693723165106090743105910000,
    657011361275616655451722174726273000, -103406447964894893701337409372614000,
    43429205294779988067782843313435100, -18337076977994316169768615007271500,
    4814235587072191697315918902941330],
    [280513489489271785306298340014644000, 620186537724371355693267757425691000,
    947074765439341312295735863765272000, 1139762633902743767200655730666400000,
    1354939209079048761336254118275830000, 1300241620911454820486662801219890000,
    1430559648417947202948566880981980000, 582984411479976199796309262107938000,
    -82199356897034662371822052926539600, 28341539968474238062837182185301800,
    -6923853481535701126137536423355450],
    [276639114408912122742042902317279000, 633911326754473576838145274879445000,
    919468888987936035525848598334249000, 1185526221710862193784442325795190000,
    1284916043010187533402181295090940000, 1406430809259989560930145958720030000,
    1252755990074537937616192523977680000, 1268864071112824545021068669071830000,
    465725527319335628565244103579140000, -54640961847019034920776501552261900,
    11162997078206520962546109942252400],
    [279627824950834869951998439409377000, 623389998015362431456118757482701000,
    940365721758552711150433197362146000, 1151642044831186668264842579692450000,
    1334801051722696775856359853657050000, 1336089966244728167551438834559890000,
    1352397089368157586839785731389850000, 1113340610224602248873206667051290000,
    1012507324429469698281392083345750000, 313950923662261561586735748059850000,
    -22799556367376224436523045490709000],
    [277515346650022497223795690914481000, 630800600574307943557851424657353000,
    925749694015836813966928311177651000, 1175061619537068806103190824074620000,
    1300997831378051018185106691799810000, 1382149445515911427842652337391140000,
    1291295301024733457136484269684960000, 1194972613473783899970801331300910000,
    894095017147262755257975060114373000, 679334403622872178568019763392619000,
    139171417790434166206884301106371000]]
  db := 308
  b := [
    2783428355808683324137686022127428936425781284844907417419214283707770364036877194184561103615942290514816051412098708190275209020083112138706369669946131602263963976445518335027593457915282108125517064430347406274930475969847833116715479671789283290001676284882402020598332412064650522786595366999838649929,
    6279018473245231231734714961197005009880789569770175033196700540895728756623563881734382085702726519893252927254226096799205344196887530366454421736818783845029627373137946730275761132329961154549923116484756244185944799397352964047644813684119746638522545362702622816993328385577088305572474624500402346001,
    9314510546386712571304882071582794584564237402010170589075320208693617400439275123466537925898979306555048226948316771578090858914929762220299383065939347312280624209515840934905415742775842642556421894044185756202981543499482980755215591384366794265870062953223864741002051729105634796951304991090914408754,
    11659688229599523995926185242158756971589908615847925451365986106096610660944049797701997421913084220827555459583936590564600753975304050667168019006869489074560505450012729668853581128655367105407206093966234504186169306339447869834046167128615279782338678759440312870230217341568057036312461594293257247990,
    13140227225512333109034443494525459768638233880157227819002768574275640166977262677620849850851335297956616761744528429654078299796941102432583311385610767030037822817111444234071231325585987931455553579375878070205634584134231372263077618510432955001005668058035895489953662588930706238193716919322762994870,
    13646254338895031535724176416817109457802098494739187379880020572661265301957942650583343224035864728505421146113786806427499068191708884349576990269630962271654912347553040193732834425475118115810756503397196037888678581319273959966600659241351882044522737163429804122444815085507726200366893007585648348540,
    13140227225512333109034443494525459768638233880157227819002768574275640166977262677620849850851335297956616761744528429654078299796941102432583311385610767030037822817111444234071231325585987931455553579375878070205634584134231372263077618510432955001005668058035895489953662588930706238193716919322762973090,
    11659688229599523995926185242158756971589908615847925451365986106096610660944049797701997421913084220827555459583936590564600753975304050667168019006869489074560505450012729668853581128655367105407206093966234504186169306339447869834046167128615279782338678759440312870230217341568057036312461594293257369020,
    9314510546386712571304882071582794584564237402010170589075320208693617400439275123466537925898979306555048226948316771578090858914929762220299383065939347312280624209515840934905415742775842642556421894044185756202981543499482980755215591384366794265870062953223864741002051729105634796951304991090914500390,
    6279018473245231231734714961197005009880789569770175033196700540895728756623563881734382085702726519893252927254226096799205344196887530366454421736818783845029627373137946730275761132329961154549923116484756244185944799397352964047644813684119746638522545362702622816993328385577088305572474624500402413194,
    2783428355808683324137686022127428936425781284844907417419214283707770364036877194184561103615942290514816051412098708190275209020083112138706369669946131602263963976445518335027593457915282108125517064430347406274930475969847833116715479671789283290001676284882402020598332412064650522786595366999838632041]
  c := [
    108856709269715035980309994385712529, 564687001159523504624211153480363480,
    1349239972129753379532918739844231860, 2404519353965940920371371652706953810,
    3652284220238275138342340072995693570, 4999999999999999999999999999999999010,
    6347715779761724861657659927004315930, 7595480646034059079628628347293051750,
    8650760027870246620467081260155773500, 9435312998840476495375788846519645000,
    9891143290730284964019690005614288000]
  dq := 32
  q := [
    [128345332952758638472288061054870, -427998592189246821868579703423822,
    759540310132982248202445534335490, -998511988158930735688704814103022,
    964315306442921509382222921834109, -373259896711843755102743414595024,
    -1138773793510423017833252958974930, 3534052451920257451902836766961960,
    -5138248729604596346888074885996850, 3887815885388399269894896338017740,
    -1096187719569581290113530745166670],
    [946855400714185898488325952178676, -3201958936846081269260944521179560,
    5850996029357338683746668547367110, -8151263447647513392530726285032650,
    9089046336969546676676014580045720, -7348332394147904004059678562360680,
    2013975500936829960916189000177610, 5509222774232691913661970185168910,
    -10226077672770351754648045759207000, 8186535104604284835815396158262710,
    -2617904203418753882813645189241910],
    [3438846533953266470452958267631320, -11561589477996705877880407251412900,
    20879476852733205044244642974007100, -28527215177868636926691792402736200,
    30962496682075538629785576141421300, -24529301523748598398068096001136000,
    8271606561560039787805465129102130, 11736862741172055265643023951518500,
    -22977810381675523605004927701506700, 18453635162575630615014510317370800,
    -6112574179573474170387994915572450],
    [9816420870448096661530117771421330, -32684501929185207484454698812506600,
    57898700765106939595612410201568300, -76592028562410494223732369056817600,
    78928705729455177014967488456163900, -57030649938281996920908126843445100,
    12737511541278121000181135409751800, 35021808011523115520358828016873800,
    -57839896578474971769395737528918800, 44604053366740703495558971505927400,
    -14834016805088172830659253933985700],
    [24238726769840235468545714951622300, -79705318762708996037049009334800800,
    137714428637131384619061017580381000, -174467226072033933326779021593049000,
    166414867571715485488836209363398000, -99937166415225908233655329438694200,
    -10997513599709661369137499590027500, 115848291481260314480300479308183000,
    -154472402364900957359043058313676000, 112375508258960195699197431385103000,
    -36991082978276245615549695071070800],
    [53471512533102060469021643668813600, -173014242784561768581350336343365000,
    289143487107758038662995214518402000, -344339577960129826069157639209579000,
    288359356477478899424394870243484000, -104371434622715769798887599931306000,
    -155952460031363836346566813882216000, 369785201817331709029131398747340000,
    -416709252459750024422874650199143000, 286578391916326923340945844525493000,
    -92933196701757278989817018584802800],
    [105999977057688228527850175406768000, -335202194887872848328960360255806000,
    532935525135131998837772759463773000, -571585605146951640499154079492212000,
    354872722732407029681302069507190000, 119739105196781147592684027661500000,
    -699367822250038438685361991863175000, 1104334164960178772019714926412570000,
    -1105431830182679227255740607818390000, 725509916049836714746123437452386000,
    -231788548181722775502590137011911000],
    [185221199940557377997990283674517000, -563700197159849696870547564971453000,
    817334866548751666571237586307839000, -684149639920781736675770050122247000,
    1216263829768422428706520308279700, 1158678933544977515088988748658860000,
    -2393418258850795524048924519555670000, 3096617608133187372655218946530510000,
    -2853899665412284821755311398949320000, 1805378523014342532307237094468910000,
    -569266002711195394365424810140268000],
    [264883579595469107522468053115144000, -738881487939947103075880702225140000,
    820657220819326676144272419076572000, -13592272568234678267253793567287800,
    -1909449398480272362235783483138470000, 4626446982601249083541926141315960000,
    -7156176348136806619920114533041260000, 8234512784957998001015190317082940000,
    -7155565909417519670939447743378910000, 4399108499828120816346017621056660000,
    -1371931402958239670819829978749040000],
    [217003577909641615268507118864615000, -362842589440264810496155405655121000,
    -584591594461132273896165459115946000, 3480783560745725502340747193250370000,
    -8514107961688326897681547077946040000, 14665865449434012377633748894288700000,
    -19665157854082209514568522396077300000, 20962644493644796279173436191167600000,
    -17447858682124526301950666035762400000, 10490290876789077427446150487617800000,
    -3242018133257886084781306733452330000],
    [-379110948404625746765730409545708000, 2119888637857281571572969746667780000,
    -6686249339414345170566929754924090000, 15355339566065182723990701802388600000,
    -27861185209845314939853583386969500000, 41408023604091344559253025746973500000,
    -50945224833101174747318299050677800000, 51480861170142568945561247933887100000,
    -41480348333491980431351360725094700000, 24504916390509185606013223161754900000,
    -7516900463705356162811626130198290000]]

/-- `icoeffs<12,long double>`, generated_coeffs.hpp line 426; `extrapcoeffs<12,long double>`, generated_coeffs_co.hpp
line 151. -/
def gaussL12 : GTab where
  s := 12
  da := 37
  rows := [
    [117938340966279567986539903712543000, -43799021576793165094018869291827600,
    32105696412565426200446923262371100, -25286807629152755932548304710831100,
    20232451989485684557176067243663900, 12477447519265958231190907618488900,
    -9304998366299741483337401477602580, 6506247887754651339002709478453690,
    -4082378825581681128664925966979740, 2076151084802875146240405023924110,
    -592710487056506905538129963004732, -16073590208866566369234735675602800],
    [255198232326244639441836509717834000, 267348314988296077400636795484991000,
    -69657036625559352808423387089631100, 45873772234643440070303148093375100,
    -34148783132572631521658083336699100, -19887360414740018438303433629998200,
    14642593652579733205611944569467200, -10155296188907128535393217411712500,
    6338807296667080854260643466713150, -3213413372518784909741529927939250,
    915875660363567404988113849493164, 26158011723129094443553165618626200],
    [226415082464546978695105146203535000, 581230577546837157157340098137834000,
    400195821358365565836631323858398000, -89663280460137518990041217414771400,
    54488048981657557154365501411452700, 27815691656187481240742622546382200,
    -19943571019279432316027055193121800, 13606262507655327203038694522806200,
    -8405538399845320632585670905718790, 4234600561413471746622306429395090,
    -1203083491103792807037863210478070, -38283982677820909472623052449803800],
    [241748261226971991223159086687208000, 510550484293886763756662871780821000,
    871038538724015915546922006176071000, 507918566807664804372661139524496000,
    -103577470216968143616942058302073000, -39020437062079334350857820022535400,
    26638869906981792913061871074977500, -17659336608137411450711219575711600,
    10720555923151749320151483414506500, -5345347663456225244477446207718300,
    1510746273009771632066103587291140, 58886796961871089414791887159995600],
    [231788873633936492342183449770824000, 550336735248898118758263652719249000,
    763035605834845887509628990891626000, 1105962361609542958486695023870330000,
    583731341345887021902124747312195000, 59169088296593109778077740995551200,
    -36759749851926730162685914692116400, 23179116258060688579369656696927200,
    -13672957437024320797547589606400200, 6706291855170222863046303513498350,
    -1880001967146501001204739448466960, -110754199817737917021409005241805000],
    [233514110134668871562570409586137000, 543232717216298316487578493835701000,
    782519909929121000782088530511676000, 1047656422347532355872787446030250000,
    1112011330796634671337988001927590000, 622867614533506962501406090107378000,
    -103795246551256818945668362263593000, 48019349246738740542126398386347300,
    -24597666558879640356016087450517800, 11227587041686618697065035358550400,
    -3043491936926798996225059316861330, 1356554406358220297876505950606610000],
    [237756683899705636974284546873552000, 527990338121421931938227287456483000,
    814064600153755452470810237323196000, 992658017357268920165952622352065000,
    1204222432543700773966935409316510000, 1356489428884751842024221185456560000,
    583731341345887021902124747312195000, -90125227994213349741372744821337700,
    37356036881885244163633656825169000, -15640105272305963956990061749268300,
    4087808298622643630896357654261390, 1186566140770420815224734439219200000],
    [234365935659549364341013703837794000, 540041977640048380045751037177699000,
    789671086793579382353111164302289000, 1033496470223467020196033498624700000,
    1140823812784792250891187623549410000, 1186848432105142835588020293054760000,
    1271040152908742187421191552926460000, 507918566807664804372661139524496000,
    -70646896007284783873659358459275500, 24146145682705391044610719189160100,
    -5871579294412855250079279262122950, 1284755666129093259353670000237290000],
    [237079765423662928780117670635563000, 530462029415178683054651284540586000,
    808797181116576452305848318622514000, 1002230871107674281542283584526190000,
    1187406253711053476120276549817510000, 1284019211744834834475435232664560000,
    1112974633710116486649883993212940000, 1105500414075467127735363496463760000,
    400195821358365565836631323858398000, -46533947570245002356066507167852900,
    9461599468012157277974661221549820, 1217919537410826443762069557668370000],
    [234960806272195568568091693575592000, 537910043349110939711015120897920000,
    794052835420064050819002004250082000, 1025992429804236737280715496460700000,
    1152820089039194310598637550054920000, 1219577217343884830559259014596130000,
    1201611465824346675325907577961090000, 969963361380686168675019130955617000,
    870048679342290484481686034806426000, 267348314988296077400636795484991000,
    -19321550393685503468756702292748500, 1265622589481753943441115613844750000],
    [236469392419615642878617937388090000, 532620478891789279655033185946057000,
    804474021542312812801927573683775000, 1009330885727574957406319569570540000,
    1176767681058073785287586896101990000, 1261808819275880491372046915890360000,
    1147230230702288359247073427380730000, 1041123941244482364677870583759820000,
    768285946304165705472815724454424000, 578495651553385319895292460261809000,
    117938340966279567986539903712543000, 1233257781547747966771621272596270000],
    [238920173869485934969304866741947000, 523469042934905536104208555611431000,
    824989309275610772029278735167313000, 967817784368590868203195880662645000,
    1271257929243030862749917856887980000, -110819177291206372873693770391854000,
    55451351895139372466261492696800100, -31819288732202747127465166981256800,
    17871732787610130891174117205119600, -8536087239706161686304902865719550,
    2362571797890264410509397838948180, 622867614533506962501406090107378000]]
  db := 308
  b := [
    2358766819325591359730798074250853015851453699742354478025267350190486057601935533541295353770726804830805083779836928983374020411956649836923182554954904287898983942924799482987843527447262899850134759596589655622699535535471062660618413315900801711163516844413331872839165251841905557280534747658952049363,
    5346966299765921548012735909699811210728508673516244000256302105140949681374878827026865904815822870678817966657057208058516525848177542242400432616345980025057195223824602414677757679288039553526246090355168977352124478564154654839032337991792586494517680687259140445064114056862149091434004043401933437884,
    8003916427167311316732626477167953593600586524543208895494977207897711258664557534082827631852886526353743854840640131362188193044132452233751550121704755606839934510329989639280049023187956999193622469436293168029530833871431912276492224352291981419423054702333644373883129114799256420125015717268485193300,
    10158371336153296087453222790489918825325907363729507319929728289882281625523642189757219753230261621558021466843162998248068567595105066453955210094799711842828445122630369140138426222851923340620032379067031949937652607630864029672270786116396398166977877263071175039194964303220807197160158415118609962730,
    11674626826917740438042494946243902812970498609987743736526174891074600003970583764033951325428184523336937821985443441694927139420445804830987519423690376766624072589744375194406081396401521244799154391146788645395822115515009397653273536576879046354203349945094456409783765654118820277080718282755795099540,
    12457352290670139250028121802147560541523045128480941569767550155813971372864402151557840030902117653241673805893859291652925553680182484401982105188504271470751368610545864128509842150823295962010809910398127603662170428883068942898312701646739185853714520557828251859234861619157061456919568793796222781470,
    11674626826917740438042494946243902812970498609987743736526174891074600003970583764033951325428184523336937821985443441694927139420445804830987519423690376766624072589744375194406081396401521244799154391146788645395822115515009397653273536576879046354203349945094456409783765654118820277080718282755795805420,
    10158371336153296087453222790489918825325907363729507319929728289882281625523642189757219753230261621558021466843162998248068567595105066453955210094799711842828445122630369140138426222851923340620032379067031949937652607630864029672270786116396398166977877263071175039194964303220807197160158415118610100940,
    8003916427167311316732626477167953593600586524543208895494977207897711258664557534082827631852886526353743854840640131362188193044132452233751550121704755606839934510329989639280049023187956999193622469436293168029530833871431912276492224352291981419423054702333644373883129114799256420125015717268485555961,
    5346966299765921548012735909699811210728508673516244000256302105140949681374878827026865904815822870678817966657057208058516525848177542242400432616345980025057195223824602414677757679288039553526246090355168977352124478564154654839032337991792586494517680687259140445064114056862149091434004043401933242592,
    2358766819325591359730798074250853015851453699742354478025267350190486057601935533541295353770726804830805083779836928983374020411956649836923182554954904287898983942924799482987843527447262899850134759596589655622699535535471062660618413315900801711163516844413331872839165251841905557280534747658952155014,
    12457352290670139250028121802147560541523045128480941569767550155813971372864402151557840030902117653241673805893859291652925553680182484401982105188504271470751368610545864128509842150823295962010809910398127603662170428883068942898312701646739185853714520557828251859234861619157061456919568793796223348000]
  c := [
    92196828766403746547254549253596148, 479413718147625716607670669404519664,
    1150486629028476564815530833935909330, 2063410228566912763516487905297328440,
    3160842505009099031236542316781412190, 5626167042557344577362206847319267570,
    6839157494990900968763457683218585390, 7936589771433087236483512094702659650,
    8849513370971523435184469166064087920, 9520586281852374283392329330595469500,
    9907803171233596253452745450746408000, 4373832957442655422637793152680731530]
  dq := 28
  q := [
    [150896077411712637269975142488895, -535369962448724198284308071615527,
    1048400184627815473480367218197060, -1596481157791107495156000446236950,
    2064162660929939106824669023544410, 2406368122801410313768864085470240,
    -2216946045128520505234995425499640, 1818713726820656018626795480236600,
    -1281907899612307058650078898342570, 704686334160615646654576884379590,
    -209858179728091629386479821537013, -2352653769846569543509638623830550],
    [282309710188627028076798864952847, -988742923646512853511486590311750,
    1904927312331820781040522567561470, -2859357131497218073895322380948510,
    3657997496354017504018057386059980, 4213860521892986378029994337023040,
    -3869967775481525342002023921131130, 3168272755296660958067938575831040,
    -2230201436388422343410650565125310, 1225010672763391871176665807266750,
    -364683105542663351688543163561243, -4139421003649321027769125701096610],
    [522929454372233683188543258498666, -1814041175832814611366612013356610,
    3452092118562147893437182567906370, -5124148816075421867431596578527670,
    6500487961011485212800281485783760, 7416495539474510007206639560167470,
    -6793890505423653483760250756756320, 5552845985277435551798963963504050,
    -3904669018857303304098612501930670, 2143431978820294454529893197841340,
    -637903959580075569147367791212019, -7313626135366038022040715691359210],
    [962790595493672265466667908700224, -3315954710015694317237744211920940,
    6250793762829187364009972388826800, -9197797343345812509443951530999110,
    11590668091111142057896305641850800, 13121886007269579989412501479547700,
    -11995835574239095438816388986372700, 9791823437197068413410314175352760,
    -6879934722644302232816914570646470, 3774905081244437681593280756692390,
    -1123189344651892442502381359878200, -12980152686768568750032581433923200],
    [1766674762103722371702107449286840, -6051310783761835268012406549797360,
    11324031765182741362338669565934400, -16549190282332457764026077348846100,
    20744321324038817491799926837208100, 23339979024740947192024232227332300,
    -21303020256333173231743737972386700, 17371856337067457883515543414068000,
    -12198683603217856758189857916419200, 6690998636549720118855120378907080,
    -1990533742293451648741640993713010, -23145121087832005617103677441140800],
    [3236885261411946693726281607000510, -11040486107533382655652913665196500,
    20543506139338268936517067925100100, -29861795827742284346316640859837400,
    37274840229873654689010329797576900, 41734760199789728319006211796917700,
    -38046348366517992626586578884702600, 31003517378373814359047315030005200,
    -21762459850111432933892015929035400, 11934285612763060464192473280273100,
    -3550051968218373631392332513132600, -41466650940412143503698917228597800],
    [5929379135778262190029012897146930, -20158377987161173498051459456075300,
    37344257929814699175313756916279700, -54054884931701211154834406927488800,
    67251296863023870854668146316850000, 75014215412573520951433798967108000,
    -68325246041509607223868097805653800, 55651970492293758342071213756250400,
    -39055653590377941201075336308584900, 21415682115120550803158217997846500,
    -6370235706303289852567429458705230, -74642402168193557372922519342573700],
    [10869115895295855507883899297286400, -36859238292353625347971523123325400,
    68049231725578411165766695424204400, -98176117756209612180116483940592700,
    121830303656060615066788679852713000, 135509532814989528483366014342238000,
    -123356567159237114544016062401250000, 100452510309818774654357948295580000,
    -70491932415858408619596209717952400, 38653735489506979557384561590868400,
    -11498036873151007588279525034790200, -134982536049212982386562992437886000],
    [19950313079691622736274295334488900, -67523726004905048715685867321513400,
    124330683465505689069926351582500000, -178918818746786295571712155063310000,
    221591209757328536627495098489617000, 245977340807546992095063027236574000,
    -223852172645236225301885337663312000, 182283647034072501129245484467366000,
    -127927556566330915026709524155804000, 70155302622561555872541953082233000,
    -20870002769972227807612956427500100, -245196218826693977177235201805281000],
    [36682080712567061442857727192475600, -123968295392537683567812659004069000,
    227795837138188649383712588249625000, -327176607045688469710918700238267000,
    404619523742295002719107271305204000, 448570675947578613566743085665823000,
    -408205367204375772041106130430976000, 332455559164270620608099662348981000,
    -233369670029808216249566460816808000, 128003396087192342794296941461207000,
    -38083101081917545662014941698008500, -447324030941647081814208342856777000],
    [67580642714810000456489580621889000, -228131018672245712597686860432526000,
    418551735986358172923218517609432000, -600291548365117788746480576164039000,
    741623253858293769372819976902042000, 821651942034578271131653018026574000,
    -747851670328275326650352087627687000, 609273182190745587993423504536959000,
    -427827180431680426865683684961523000, 234724629113263035968975641232769000,
    -69844987455810311511482974077412600, -819458979639261655645198582173746000],
    [124774865770276099141477113854943000, -420842554701771512598430774577837000,
    771243003396692450092868318410581000, -1105003703945794566604223902261230000,
    1364283233556841444079559418957080000, 1511403941555617730613066242803830000,
    -1376186321407119305678175024650510000, 1121712902321946317943387028527020000,
    -788005368711531526217271002889828000, 432475425636328033835857959818826000,
    -128711893214967941379531241294378000, -1507143529326165218109304260753880000]]

/-- `icoeffs<13,long double>`, generated_coeffs.hpp line 447; `extrapcoeffs<13,long double>`, generated_coeffs_co.hpp
line 157. -/
def gaussL13 : GTab where
  s := 13
  da := 37
  rows := [
    [101210011913289698800053980502465000, -37730715853257311763965395647869600,
    27856157560628054050639176971501100, -22182703840461272747090936900642800,
    18030646911529192476764806498004600, -14642861839759720637321919539871800,
    11721943452337661278953343294076100, -9135829254769469142798337860765160,
    6827077750145270709948065266172370, -4778468253280570449549041515451780,
    2999626252594454610303727974348570, -1525762992120453364956144905340170,
    435604600183718814871431827825288],
    [219001283175295116522258243792181000, 230303749594321119786054439884493000,
    -60433198254482344594820535973915900, 40236767556734102486761611340945900,
    -30424947262263454871037084649685800, 23820349877676374507747481216259600,
    -18672464008113139924910986411395000, 14364746482838592671429032169263700,
    -10644224460113069929088826287022200, 7408522314171861495207857723765440,
    -4633455397879408873829893639110430, 2351390881966003699478142896460730,
    -670516615041579007988664565837295],
    [194299477196462080138986265725847000, 500695755432635923426235131209137000,
    347183775549468096159004442172179000, -78630320673086857063475410982075100,
    48527461585535623446013772383413000, -34840033366076844758749338271610600,
    26090624296798342870508650254568900, -19537207684109716372767369192470900,
    14232950875334562740437508657958400, -9797335329876508771685718756489960,
    6083550590297416471813074120826810, -3073594525034566439799320838200920,
    874442385102884182445865602618302],
    [207461084445201329864662811434272000, 439800566806027462386107262155192000,
    755663734121840834838611362790007000, 445364951904864345700116729990245000,
    -92209168426018347115792303880350800, 53546508856877483581783634105152400,
    -36552267998513166322411945764723200, 26044290023489437552430108265051900,
    -18420098947617049273928636216506900, 12446081221076741623558139079784600,
    -7637502357566112598633516029962570, 3831038927983370378537843794160090,
    -1085915779347433834964524699899290],
    [198907528982510605465179672081930000, 474094387268283867543203296582884000,
    661938972977494572894970911918178000, 969774293976857866965958632022815000,
    519540118842221255781308048265132000, -100633070332503760077136218506629000,
    55344249147495185850626354360336900, -35852200828572027741098453153797100,
    24089462753595690176622457732368500, -15790246382069436958498641705893600,
    9511199314348668007726606636837670, -4718412911307997819525982655587310,
    1329962009411245521099055783224860],
    [205039757594727670060681545998433000, 450910064519209141654412218524936000,
    715749421921594625399608006277203000, 848574338709379334336662073674475000,
    1131500570931065592704278183814310000, 565707950657243096030225465099442000,
    -103514560922495229752504808065757000, 53940038996941716117427906273891200,
    -32926276990788138010609146603503600, 20503890674033608805775713949784400,
    -11990288486457998032009802595525500, 5847990952091114488188367748430470,
    -1634478332218504129776329586063460],
    [200379395811026762773049698442838000, 468004290851373722985012660116026000,
    678786934544959035977382705879556000, 918730747240793403196288054251039000,
    989622717612276794983509717814398000, 1232140251350561942457843939968100000,
    581378883077184775486473788172090000, -100724350036075750397393009769219000,
    49457520072165716579106378715865700, -28000843431064711796054594270549200,
    15580616553977156340626178464801100, -7396791662731483412903780347040550,
    2040628015552634827058262562091940],
    [204054502158797901729884290590994000, 454759508236551125083920512020555000,
    706357839585394190350018686939883000, 870226013135695082594457746030706000,
    1072006514675230649573225243133770000, 1077475862317544475943023023924990000,
    1266272327076864780725452384409940000, 565707950657243096030225465099442000,
    -92420333246623081141662087284046000, 42155565100349357063571386306015000,
    -21381870822658433081599121932846100, 9697434669433097917696661244049340,
    -2619733768148272460573584993502640],
    [201090061817168152079008905221705000, 465325912099950237391634862424573000,
    684856351784587524310282277707520000, 906520150191798128358732101686384000,
    1014990774930846821385993638797900000, 1167268102143058219801549383352680000,
    1107413517006874365122321221983840000, 1232048971646989952137587148705510000,
    519540118842221255781308048265132000, -79044390167129175565725172042324600,
    32428578121441619423037972426179100, -13486888079641627971094416813898800,
    3512494844068792134928288923000100],
    [203505939605926831435072485704830000, 456776460260658869193571035974826000,
    702005053456502304916642400374320000, 878283822588651949776675320900705000,
    1057500336632059560836544732746770000, 1105371611290996754508020821933830000,
    1199310034152882717295359522108900000, 1077869392457608708478667296093730000,
    1131289406110460858678408400410610000, 445364951904864345700116729990245000,
    -61296183022904642520602478445649600, 20806932382614777186001617613793900,
    -5041060618621932264554850429341610],
    [201545581441476513417662095402312000, 463681093713676806011908200607187000,
    688284000508638775846195810223531000, 900527239139605200171919178736980000,
    1024847286809107948822178587872310000, 1150953108998595908433218299391350000,
    1136667141857571208102438926089610000, 1166255934680563036819200268470490000,
    990552776098906888116602324146851000, 969360224482815548463708870962565000,
    347183775549468096159004442172179000, -40088256243993683854126251440151200,
    8120546630117317461121695279083130],
    [203090540441620976608096625570768000, 458256108306676235872630736872525000,
    699001006496815601191838777983468000, 883321381495556829905025602256725000,
    1049724462144555581491704922817290000, 1117051154831647599389021898029620000,
    1181430230162482690897858562755570000, 1107595551436809817552703448982620000,
    1069505184946705966433653181179950000, 850493136252994588913471848639544000,
    754800749353418536912829420318273000, 230303749594321119786054439884493000,
    -16581259348715718922150282787250400],
    [201984419226395678785236529177105000, 462133262180762692937065024674326000,
    691367924846341737707705156370009000, 895508372063009261849782501495942000,
    1032253159934297240852668031264090000, 1140551730569255661203249268059650000,
    1151035822702031889693994233050100000, 1146058763154245912697772849738750000,
    1021049590772913319085851290032260000, 912912607650189964147324396881133000,
    666511393538308138267369707372856000, 498338215041899551336074275416855000,
    101210011913289698800053980502465000]]
  db := 308
  b := [
    2024200238265793976001079610049303002099327287249443406752330375249723025639635524721040621652658087716278288373004235222367267761966145393543092258091307212270049169012453524830216381661573748082985020756908333775318038438851462722464701087310284638618909637595959437142674399783276475337158478666123803064,
    4606074991886422395721088797689856046184199993111841954419577366979686486381646314594890787786598643442321030901405577026403779110306650662875127274655613997643891316892901300482977236198562381364960875264334990244393961533209879827810468788136014759300074413146820910935306051339159966328620881309061141179,
    6943675510989361923180088843443573381093135913164911382317750825288626076744476786259077142730281293120484213806299496579198091119620002807017459072511229099210219098216616789689231701182646332857409924459621425573667123234008772141813304105504691015605753990636549243846714887332099786266680517547440614369,
    8907299038097286914002334599804899775640632533050825149339722014457253474937436174735847561115635075348352486003719730489174416209469371209588087083016935391997226609884624983801453498885147006101991862149767967272890365366640366758806541268481095589057487164392255566414840896418064427859280742706180743704,
    10390802376844425115626160965302638169329130459975177460955555995826927178254221613029776402330596328799132035258453642083913156234388497999294645330983559747417936397378434712154122269486920922247363738386742403030602524491482866179386541196871848639256502974071154202339408554548544032501014848471968475190,
    11314159013144861920604509301988830921737886880777850993248427438578783156024998552091315933315696486056329445537634182132789840393817144512477190759360116187205330136284679375735702589305809346988043204754233668694933561758364491910574967427202955848068744744613202078279477185983847699716615557653271758240,
    11627577661543695509729475763441797407831373865339899305933271967238001204035170069136103102137068171034205000238966272932306898340864374830408796442762476728510694544660578626612592646558680524714490748456782422816388850354884320918286952252986219020185054151088117122083156049190015223981257947291912499330,
    11314159013144861920604509301988830921737886880777850993248427438578783156024998552091315933315696486056329445537634182132789840393817144512477190759360116187205330136284679375735702589305809346988043204754233668694933561758364491910574967427202955848068744744613202078279477185983847699716615557653265481850,
    10390802376844425115626160965302638169329130459975177460955555995826927178254221613029776402330596328799132035258453642083913156234388497999294645330983559747417936397378434712154122269486920922247363738386742403030602524491482866179386541196871848639256502974071154202339408554548544032501014848471969998820,
    8907299038097286914002334599804899775640632533050825149339722014457253474937436174735847561115635075348352486003719730489174416209469371209588087083016935391997226609884624983801453498885147006101991862149767967272890365366640366758806541268481095589057487164392255566414840896418064427859280742706179183318,
    6943675510989361923180088843443573381093135913164911382317750825288626076744476786259077142730281293120484213806299496579198091119620002807017459072511229099210219098216616789689231701182646332857409924459621425573667123234008772141813304105504691015605753990636549243846714887332099786266680517547443278613,
    4606074991886422395721088797689856046184199993111841954419577366979686486381646314594890787786598643442321030901405577026403779110306650662875127274655613997643891316892901300482977236198562381364960875264334990244393961533209879827810468788136014759300074413146820910935306051339159966328620881309060101292,
    2024200238265793976001079610049303002099327287249443406752330375249723025639635524721040621652658087716278288373004235222367267761966145393543092258091307212270049169012453524830216381661573748082985020756908333775318038438851462722464701087310284638618909637595959437142674399783276475337158478666123836934]
  c := [
    79084726407059252635852755964451718, 412008003885110173967260817496402745,
    992109546333450436028967552085700932, 1788253302798298896780076965022422230,
    2757536244817765735610435739361799920, 3847708420224326029672359394510055510,
    4999999999999999999999999999999996990, 6152291579775673970327640605489949600,
    7242463755182234264389564260638199800, 8211746697201701103219923034977568690,
    9007890453666549563971032447914296930, 9587991996114889826032739182503595600,
    9920915273592940747364147244035541000]
  dq := 32
  q := [
    [618176128296585651431497281229868, -2140880300615997775494840327293960,
    4120322396878455966947286667617380, -6349253215777732073623889809476010,
    8635718978106848713461366665070780, -10737632350964506610718810969965100,
    12274898560479025026068685013756100, -12582102593373122172135064192784800,
    10622907905289270203629550122612000, -5775265177333573708319922290094170,
    280796017296110886466495492110461, 1817081359721881385095959550890300,
    -683976860739174900281954676113182],
    [2937150506233876844700275727183440, -10245868763018508338493724912581500,
    19973007968347167744045702302625700, -31328798152374784396763607195755900,
    43528360902463988512829139777351900, -55331665953330444990313589985442500,
    64461701480484614255440225037879500, -67151294600056093352530324008548600,
    59241447495743479427696495878533100, -40539730601453583413858028987380600,
    19229818800364536725542123083889500, -5773553972682784158490955433049050,
    1050218863739581172430170562665260],
    [10979681922265256550993295636237900, -38365443984562064607433214198113500,
    74964679847314340754022025425482500, -117790902593643831084103945873768000,
    163498888025749766493500806048144000, -206508918373553772654497109080839000,
    237327152365996178647401426575764000, -242828240821921111495562837070537000,
    212501151597490212799465359920317000, -150914992575826129732744852569438000,
    82797418770639095743280717837792900, -33877114518334231466723949562608200,
    8250770789865212672585886362156130],
    [36440195496863715421823112228255700, -127180909826366700920727229954761000,
    247821640893483550305152313432620000, -387271611269922261506000245035004000,
    532359355927527735002487662283664000, -662191504358561600654948777304339000,
    745281646658216690870427715056826000, -745189638293175478476430243125628000,
    641705041467219184434157550676166000, -458776010387560030270007882856004000,
    263593729272135220925235299737903000, -116660756701658194498885644215174000,
    30094621400213663333323842960940300],
    [111079189233423138258940385846226000, -386630184334451451028218878622838000,
    749329352088790168951633861250514000, -1160645862607585193583629469696480000,
    1574502102918293133732698328960670000, -1923413969046123814580655580616190000,
    2117415478511620157068465198381630000, -2069031784344438903402652562117970000,
    1750639651826554345416458820667470000, -1247386530029400242724247370567610000,
    729245935786014518749560281023128000, -332868586831762129404068217614148000,
    87786010284435444941919128485401800],
    [316102032177507813559289926500141000, -1096434938245374379631161813087780000,
    2111014645750283627144349453307500000, -3236416473954099899473973284426500000,
    4327828826374455678876308099130920000, -5190195342221762419926602392849480000,
    5592227074542048502129959646182090000, -5346434058540613918248061885297210000,
    4444501678313738965693954677315640000, -3141557503747737129973416166296420000,
    1845241602381410469157122811904310000, -852839532118778753390726671880366000,
    226979462604693770452027151439691000],
    [849000766350392082721256189847668000, -2933688687506423384537838713349530000,
    5608523950041471658091555445488370000, -8507213877345367921793991679137000000,
    11212840223160262594066842763190000000, -13207421997828675462237421557242100000,
    13942499668364806897157307996528400000, -13056605191050159391589218769082000000,
    10664058524293487343715659298203000000, -7455334969639150323332543494112910000,
    4367331104342109870329021602021290000, -2023834208514913104549646440484460000,
    539859790906169474154003242121813000],
    [2170107151147881163111348775782810000, -7469464504825648535452038894779780000,
    14177499351431074307244110935416700000, -21276893178663046928989074013029200000,
    27649259849069028218461909139257000000, -32007934713480784191988715926722800000,
    33135721769246140861950775396031400000, -30416130107459736307093735093728400000,
    24398324724124734737271314981540800000, -16825531018995719178739861337106500000,
    9775634113774071127986105119571410000, -4510611417083611404320337263962080000,
    1200031294802942470634450697042610000],
    [5313445323359607971417617922561600000, -18217124191916015249463433128641000000,
    34330208157909013036956241220592700000, -50982080728047063059563588910131800000,
    65340889605973536929017712870642600000, -74380077854293734871970407692139500000,
    75551371500943070629080709580386100000, -67984917707952833163617264283585300000,
    53502038147269457663031562325782300000, -36282715696747712552023805046735000000,
    20794132101168911050516965852163300000, -9491790171305050491469056513354870000,
    2506633441081934973656116090303780000],
    [12526022164546465098930327651188700000, -42777538355820262169412813128860300000,
    80042197005791886814846267546604500000, -117637400052070059923049399661480000000,
    148728940126686937453626759788493000000, -166518292700380066818988699038920000000,
    165958903838150501805882031164568000000, -146301936029668083674363423236896000000,
    112727794170133096268629200010303000000, -74862313964132452849255001061368300000,
    42042171097480397972649607327661500000, -18836354118495302741232949137681800000,
    4907817637370825190433082509464320000],
    [28543562125688016809767210024096300000, -97097013753342729602249608298628400000,
    180390490931779843101413877277024000000, -262377417868842167164438242346562000000,
    327225391169729268493759393897235000000, -360268613960207330448571494256314000000,
    352078183805347001471628905531302000000, -303572068995387635182045046975868000000,
    228233082017965587679532530032986000000, -147506860792357783427356743267697000000,
    80396216986090465289318530272112000000, -34938531271893116846582060750254600000,
    8893589519212711308942318389235030000],
    [63058834147933029600037809506665300000, -213655549975080224050255855594220000000,
    394075433118392033309939261753250000000, -567147201365465580458931512697987000000,
    697477615211067395743818446305069000000, -754579103786820762601810551614704000000,
    722003332146390328825210208677094000000, -607070801759000314929402462067901000000,
    442837746844219411181447561886714000000, -275764092177604552736122791281093000000,
    143532802815457896529935265802916000000, -59198566572205644600786131954172200000,
    14429560512219906569804419431257700000],
    [135339451820168590660471632236399000000, -456673844274125271219955966836727000000,
    836015671940810432420536505632625000000, -1189963204570772969155000874284120000000,
    1441879455163314070053328562842680000000, -1530594643512992165467696469036150000000,
    1430001591637837944792361902718530000000, -1166576976333351444249440879196890000000,
    817886687936224856409502137761671000000, -482152568873485756279140058758120000000,
    232135807933757355274280830023582000000, -86342914765285519980785865562900800000,
    19045494419691200415705931777803400000]]

/-- `icoeffs<14,long double>`, generated_coeffs.hpp line 469; `extrapcoeffs<14,long double>`, generated_coeffs_co.hpp
line 163. -/
def gaussL14 : GTab where
  s := 14
  da := 37
  rows := [
    [87798650829379657579582190345479500, -32831162304293408679868831621625200,
    24376997719052364836975386753249600, -19580992967758044684983778911199700,
    16111677584794634964844426571188500, -13305215627029150677269335144615500,
    10896388846622097478503937587771200, -8763020057404518151143761270021230,
    6846936910399254539308832848405970, -5123484128429210489681874811647740,
    3588482312983444637162622185717740, -2253310483926720848704526018774300,
    1146282086009922895176959414050550, -327274204462017607888581448243350],
    [189981535901935692032565753457345000, 200395217899400524514083192657136000,
    -52882869287790577282715458873169800, 35514117389697223431111678315549900,
    -27182264868894430008923033134673500, 21638604352249803036791088402932500,
    -17350699641636410831403585059039000, 13771125761774935766729433152868200,
    -10667364774638031504274824963751700, 7935680261387296775453389243628820,
    -5535932193364373270163069548099970, 3466812812695392774376692579435830,
    -1760599606717605095879430724742050, 502217676032972980292477605208439],
    [168552230279503139456460219204252000, 435673907696408731646233759168512000,
    303796426719757961723537022681192000, -69392317551903511934530501960376900,
    43344047055009054000675591446558400, -31635153229594358006317143608983200,
    24227728905435910262753596547321400, -18712135505188842477236872827677000,
    14245300638396422268894243934999900, -10476043031229828963247022658376800,
    7251532526258532592560473969273710, -4517718459814187537793977668573580,
    2286836341420811145933217893616460, -651217733284800126896319373713546],
    [179971729465900660094843746827399000, 382681743915636711701172340552138000,
    661233345536871905749021814089698000, 393007917895483836424004846559605000,
    -82337353649133582674221035028750800, 48594874272578584599773585690712400,
    -33912837807224448551702985166509200, 24911995991294662482251038185531000,
    -18402103787516919581294029087173600, 13274581994761573653048531511882200,
    -9072771211823127137260715724316140, 5605458743722569648262300907791370,
    -2822778594655657419267295004863660, 801673175675880271268840590184610],
    [172547617984066298930832342738616000, 412533979917853903899376777087094000,
    579204623738544047817452791920076000, 855778714769197311989090537154116000,
    463845993694844534354291475312893000, -91281200030688214712444570948278600,
    51298239065868269242832000993037900, -34239950868932336847991777396202100,
    24010077122040084121976711839439000, -16785938592608716684365913767771300,
    11247301694118544376923750708381200, -6861295521167755590030034081775090,
    3428449090382548450868945408752760, -969793854288979175266629724320737],
    [177874472666498987219915789897631000, 392337598958662474135725228744003000,
    626327197421615393472331900914912000, 748787154811760310330609299933730000,
    1010227535007433416410285890803670000, 512996159303239009914810164153045000,
    -95863697595316087095113485091973100, 51428942565400377341484570732422800,
    -32729820028594501604781110992100300, 21709671465160651587578978194795900,
    -14097907680734869006773207597178100, 8436069847718634750857286121712110,
    -4167066067959313715927660629718390, 1171844685666714080637233972670820],
    [173819598204594481529414082955742000, 407251338880214787650397745445252000,
    593916061259882977498028646063490000, 810781747135810532747494681898616000,
    883477443625841108910902653689403000, 1117373584697993047474620095895090000,
    538159633657894475489691108290650000, -95894450274670615429321602528838400,
    49024208363142884874203575069160200, -29511808470121577473837553380983100,
    18192764865346999520933519849609500, -10563185246974520091536022339665000,
    5127972399180805111668266165288490, -1429652634853698143882448171986440],
    [177026954293613013303046828862945000, 395662463399620243916498119148983000,
    618156038686490443538610067702048000, 767823070925620673327076173269601000,
    957203795859810646182420504006768000, 976968110243335134955416753236930000,
    1172213717590459566408703819110140000, 538159633657894475489691108290650000,
    -91381266091515027644999767588998000, 44214543763847959797680296936382400,
    -24765911344842859899484988779405500, 13676792179632945949045399298893300,
    -6460903081413738622231360130980150, 1777703454164833629750297735216810],
    [174425456973092601078527146718288000, 404957501866760362744094045943990000,
    599156783591797288696216759240671000, 800113743471702541854782900716389000,
    905982315924528417121003972430989000, 1058722138635072521434401439298190000,
    1024890324750388573637897645848880000, 1172182964911105038074495701673270000,
    512996159303239009914810164153045000, -82535547617744347701702940177884400,
    37228680979207362517400393185480700, -18734343982099470025257855552529100,
    8452836840138574892441156570268790, -2277171007739672060751409206672210],
    [176567095513048294334431010415280000, 397361986708418500577297439905519000,
    614454148960683679037104079444158000, 774768534096849128471085942410829000,
    944477925982297785392948864393556000, 1001982241484437935707643616466650000,
    1110559218184721287827373993977500000, 1025021028249920681736550215588260000,
    1117273518637166234542064899254370000, 463845993694844534354291475312893000,
    -69762878978229639141080844034904900, 28388229700971875629621253442307400,
    -11743544119052854871210391772822400, 3049683674693016228332037952343270],
    [174795628483083434887895540100774000, 403613214393456706447433680319135000,
    601987394695793353798811744454592000, 795088607002790799985270408843527000,
    914417405394927495055534419113903000, 1044394422393994939410914357393260000,
    1051407271324494288497131178395770000, 1110232105123013399531085201747810000,
    977397444333899435229846742615378000, 1010029341038822651382803985654540000,
    393007917895483836424004846559605000, -53640492097355982301947768727315300,
    18108691883164337326994044762133200, -4374427807141344935679366136439930],
    [176248519392044115286060700064672000, 398503599457380237882233167420655000,
    612110571899330110984868023030957000, 778764303264709140255449219149937000,
    938168030420918897671829973284162000, 1011747017968081597560726084371090000,
    1095031402820977793456619089408980000, 1052091538410353040716628620033980000,
    1057627471836072377835937471915070000, 884347940334680014707907359179227000,
    855408153342871184782540195079588000, 303796426719757961723537022681192000,
    -34883471897607682618067373854240800, 7045071379256175702704161486706390],
    [175095083982726342178871903085750000, 402551035405518654124045816039014000,
    604126040626820530672697352782947000, 791551767984332046118172762667311000,
    919756307128301771933129561382156000, 1036659683381116051333895153269840000,
    1062548141554014015212652783428430000, 1093669966957425361810785801640340000,
    1004353714254228216792829239903160000, 954874252258583498717505983760459000,
    750501718401270449416898014803661000, 660475722727306500729789504235553000,
    200395217899400524514083192657136000, -14384234243176376873401372766386200],
    [175924575863221332767052962139202000, 399644153712791126132989425900221000,
    609846163923442644295778571381157000, 782427353477984228210847070933493000,
    932815471518118279198264825437433000, 1019145381696078765290311495457680000,
    1085082287373193469130525977851320000, 1065422878469166853500878278993530000,
    1039297534233507170506889663450710000, 911580309804894433743738524054597000,
    805596828758725717532993472030411000, 583215855720463558610098658609134000,
    433621598103094457708035216935897000, 87798650829379657579582190345479500]]
  db := 308
  b := [
    1755973016587593151591643806909589030985280463856363829074994509820816141890413526883839849932323183071086623822027556727927392553099215493386670442297858197396624404372228364532370742073853375159300715300544685130881177033802618969522294873299050437935904327044425527781095738044621648343380412060882729124,
    4007904357988010490281663853142715479184889269729738260069953274478573722864358493176809540956887798431125079540194237439765456912863022171883775599223704738986938618502683052885892613269772745615677733124855797322883267882608004687446770638554687675994193246397378142367581893645469507593959641161732825403,
    6075928534395159234470740453623831297833467284503733614553769627157987194626324615940995313518750357445777532652962849714057871567044342740482106285722730401445927053077103931002823377281466480127030511981835899270295037750248645249462050650955361786709105416648319337324109337606520468779147684278127732180,
    7860158357909676728480096931192107830283401866866168748465852193738408818480414925697904668120903813842657599954059425094271874603232881337446214551863230099350051109782372955392116140280534305845385660923346758006918872141925113294496193422195423425114324525620482851079333665449047681553822187276041950345,
    9276919873896890687085829506257851812446130146866582951001746253454917513176272221277636557335611149128056075286445944953894824871260804475427626207641821803643202030013616189848570692537672804666561394522496942619224268319696130896093991238030751372574677785064549447515336782318788732728214529799226224416,
    10259923186064780198296203283060902785516953065470972585844864514168357241262486016971591999594544786218463472122471436422674280669253224329593511510701583357089366649673741391956905566284240641271983801045252648826771248656187766257345964259490361973535249823605158866461284827504183148683651036987426028540,
    10763192673157889509793822165813001763749877902706440010988819627180939367699730200051222070540978911862833616621838549647408298823246509451780095402549071402087890134578254114381320868272459647314060183101667268823026128215531720645632734917474363328136544875619685827471257755431368812317824508436610726670,
    10763192673157889509793822165813001763749877902706440010988819627180939367699730200051222070540978911862833616621838549647408298823246509451780095402549071402087890134578254114381320868272459647314060183101667268823026128215531720645632734917474363328136544875619685827471257755431368812317824508436594688720,
    10259923186064780198296203283060902785516953065470972585844864514168357241262486016971591999594544786218463472122471436422674280669253224329593511510701583357089366649673741391956905566284240641271983801045252648826771248656187766257345964259490361973535249823605158866461284827504183148683651036987413544040,
    9276919873896890687085829506257851812446130146866582951001746253454917513176272221277636557335611149128056075286445944953894824871260804475427626207641821803643202030013616189848570692537672804666561394522496942619224268319696130896093991238030751372574677785064549447515336782318788732728214529799221578134,
    7860158357909676728480096931192107830283401866866168748465852193738408818480414925697904668120903813842657599954059425094271874603232881337446214551863230099350051109782372955392116140280534305845385660923346758006918872141925113294496193422195423425114324525620482851079333665449047681553822187276015196586,
    6075928534395159234470740453623831297833467284503733614553769627157987194626324615940995313518750357445777532652962849714057871567044342740482106285722730401445927053077103931002823377281466480127030511981835899270295037750248645249462050650955361786709105416648319337324109337606520468779147684278148536558,
    4007904357988010490281663853142715479184889269729738260069953274478573722864358493176809540956887798431125079540194237439765456912863022171883775599223704738986938618502683052885892613269772745615677733124855797322883267882608004687446770638554687675994193246397378142367581893645469507593959641161726341104,
    1755973016587593151591643806909589030985280463856363829074994509820816141890413526883839849932323183071086623822027556727927392553099215493386670442297858197396624404372228364532370742073853375159300715300544685130881177033802618969522294873299050437935904327044425527781095738044621648343380412060883202379]
  c := [
    68580956515938305792013666479736040, 357825581682132413318044303110628669,
    863993424651175034051026286748024844, 1563535475941572649259900984903328180,
    2423756818209229540173546407244058033, 3404438155360551197821640879157622740,
    4459725256463281689668776748900828250, 5540274743536718310331223251099173860,
    6595561844639448802178359120842375780, 7576243181790770459826453592755938370,
    8436464524058427350740099015096671970, 9136006575348824965948973713251975590,
    9642174418317867586681955696889370800, 9931419043484061694207986333520264500]
  dq := 32
  q := [
    [-1029104912017451207602882387985590, 3566499321603257662160878549549390,
    -6876905933910703222397730600262560, 10643324918605730635335822652675600,
    -14614348619226388863442606912887200, 18539642503993628436829855288178400,
    -22109012019688131457256101260392400, 24830179992936606650032168693113700,
    -25791915349823941634406853430654800, 23454542186251335570903942311138000,
    -16585131317651210984794819019449900, 7573072251544883375668318599054060,
    -1780509304924459168239775856404820, 280352091872003590267703510993137],
    [-3781467070345602164719318492123230, 13233852312189342692951332606309000,
    -25973368478419248996310300433832000, 41246102599519106998443798660151600,
    -58558640489405769450422303778448900, 77293172643599066343636410856912500,
    -96163325318861939800033048479803600, 112246223959614404495430285323460000,
    -119957644091701316877767462604961000, 112131552041206719751305812266943000,
    -86145330289980405428058478744583200, 51267077299570235855881904071277100,
    -22653072208634436100060229127732600, 5865555252888800383289899345896980],
    [-12753352756755806814571706836789700, 44917649372542505112609558252773300,
    -89130880702720953272755073399780500, 143618387126051936278669882594828000,
    -207238128909747376426390596998835000, 277608252331922462692295432742709000,
    -348535745561204618618254409204422000, 406717411303625056526637777473430000,
    -430761478053183418376256732189741000, 399398336654513992651988387713234000,
    -311001615947563108468749394495589000, 195786729941395747808229622248384000,
    -94391420200771238736773575331616100, 25799879258892911567552203009729500],
    [-41931281057980481459311108503006900, 148064665274544785401063865373233000,
    -294965192304157869315077529318076000, 477186604845340577858550851665759000,
    -690028250086299159659038787191180000, 922325105430236863196001650975965000,
    -1148000534898597755801346492275930000, 1318843344191750731549911839629360000,
    -1369603622040703617489388440960570000, 1249521642776834831149635162786590000,
    -971066891203171241983336541072945000, 623048028130710408760732835157589000,
    -309747691771321460217772884973423000, 86379765609711253750959793335198700],
    [-133900310263941210727628402515108000, 472562434280184697359962248989085000,
    -939929190846967954289849770048559000, 1515128856432646119530992097327210000,
    -2175814744219824170751961978779790000, 2874998440668599162433822653335240000,
    -3519114324204282470049059999118830000, 3958778228487253952835225108712400000,
    -4021399721700440557494490359533990000, 3604796635812230292958471002751850000,
    -2782163039421693490636660305890040000, 1796332768356919167761060009176080000,
    -904983293363325887593168958371618000, 254727955263636234937883135119179000],
    [-410628213009044319256162406732297000, 1445718062576405917088740093512600000,
    -2861996645532669568054451937270880000, 4578215937994799317362579688931110000,
    -6500730109656512906593641815920410000, 8458413182583874954276645302700830000,
    -10155637921559586658345270419015000000, 11178350440971979047552888447301400000,
    -11114997857837526717997788024015500000, 9796545927677905561208294886906790000,
    -7496778403754939324243125219511360000, 4844282877148169975976292794546460000,
    -2454857400925508398344256666303590000, 694117487665328518501342424208789000],
    [-1202894751361837004228871055563970000, 4221287290245737398800558149384790000,
    -8305663486420268504562294094608270000, 13163098115769675946199997976633000000,
    -18452826899015272581090814809164300000, 23621366149640393898501523972313100000,
    -27820866278363913263527825560891000000, 29995928337436293566464500741283600000,
    -29245213258452807546553056107474000000, 25377786022133338087392629194407200000,
    -19248490161854111792022418907812000000, 12414710581681491493843306731188500000,
    -6304515764781924481364768142941520000, 1786309089139489119923581005052720000],
    [-3366553845430483121586589796898820000, 11772283099271043345636198777525100000,
    -23012073266974219339888222020594200000, 36119439417596021670944786298838700000,
    -49986614096583030315791414330889800000, 62980497750905148657568412113270800000,
    -72845083114132634495243923808945600000, 77063083048268440930894360020549700000,
    -73809796377235194533198923873356300000, 63144971927630285656176738028596800000,
    -47473847381986198739202179298588700000, 30517315135471271584636960349937100000,
    -15497316907391545657306645340934700000, 4393707813090114443541385583355790000],
    [-9028414181154379814182778204435920000, 31458904010826708776967600987431500000,
    -61098712151269524443940901329785400000, 94999693224497322901009789796612300000,
    -129861047556820315466439475105577000000, 161197599678716421893265444102803000000,
    -183354094495486125241324005652777000000, 190649654385793121049897216844349000000,
    -179686040748350440382596650597093000000, 151730774721391092423589130639468000000,
    -113093026467387249273443478671252000000, 72391483957290009390671735226741800000,
    -36711650443797060459256919113986800000, 10404887881788659718683422282714500000],
    [-23292602901836638856580973423549600000, 80883515775822143616075669182977400000,
    -156119024341736888582559084358226000000, 240577130399186894658932425730686000000,
    -325071700325562888918646476931183000000, 397970003137809377640153646512347000000,
    -445771966992559199321102923855428000000, 456264228605076153961492904275138000000,
    -423751517982801615962226426767256000000, 353507687500670873037895259326751000000,
    -261249724601737300487201496509078000000, 166408326422924393939065554025013000000,
    -84191724159122562394843710111255300000, 23837380171233643067307374704459700000],
    [-58041519663656493730666228444203900000, 200891680998371169713254683946748000000,
    -385483132903219786047409861218021000000, 589031655586515519148797316502053000000,
    -787335614627836301906415308516156000000, 951604149744950038420167367820956000000,
    -1050910775672520591872215906181530000000, 1060150757725881939885590280808660000000,
    -971276921979597256650704795085019000000, 800992257767088472442861387877500000000,
    -586905598806086503622814728861305000000, 371779752462101482920853222180608000000,
    -187497757673199836693165961315188000000, 53001076841934082760486787839750700000],
    [-140203163101291605392867474300610000000, 483765274514607714980715759916191000000,
    -923131935935327764401527248252587000000, 1399410447448114080279848662086830000000,
    -1851645663633111820886797782389710000000, 2211315973777261234942657183867380000000,
    -2410058270923967023417422810301300000000, 2398504377551339280843797445371030000000,
    -2169300807354669038714151729828950000000, 1769069899553094603572128043752120000000,
    -1284910923457887212861903716445450000000, 808895574959350190169803914191994000000,
    -406315688352746404051763763497436000000, 114604914000845661398108164616212000000],
    [-329346623196939398018625123624224000000, 1133050775531456773477163938473570000000,
    -2150733286601074368624700068182880000000, 3235936928653034777001824780941030000000,
    -4240824367744460280303308247421140000000, 5007678035347405239999231693386230000000,
    -5390116730159791955081107489486860000000, 5295525265053268964613200294289550000000,
    -4730169330347852939445002300691600000000, 3814628941399357759450884913136330000000,
    -2745167197931502490907719183977240000000, 1716032950623754511213763223933590000000,
    -857752261381901325531203805034596000000, 241256909162304025762132772966568000000],
    [-754380568648201912072365117238206000000, 2587978499010377521767588636974800000000,
    -4887722581741205803381296245382800000000, 7301292123982091383080486207581000000000,
    -9481513452623706290778943019268430000000, 11075792330176941797180339018564600000000,
    -11779740498215836612921753823777300000000, 11428916055742578218551536680827200000000,
    -10083342085363830692694019978729600000000, 8038907836017214671584336507418880000000,
    -5727555993764252782062884603404910000000, 3551289378097716792411851844403440000000,
    -1764422789965336076231992488260800000000, 494501755155542945215632697547358000000]]

/-- `icoeffs<15,long double>`, generated_coeffs.hpp line 492; `extrapcoeffs<15,long double>`, generated_coeffs_co.hpp
line 169. -/
def gaussL15 : GTab where
  s := 15
  da := 37
  rows := [
    [76883104990293170886570983943011000, -28820765229643958006354695664049600,
    21497713568885064428794719544123000, -17388496538029808355878821657804400,
    14447041391572613870886976771633500, -12087512459368854665812848587783700,
    -8291982799572700561654753833309680, 6688209755299171879403696825618500,
    -5234503511727250581365956751654610, 3920467306916020141143957774966280,
    -2747156217549181185827949775186280, 1725381277065770397637171646934610,
    -877790602645868752966820187805339, 250623437545120994878446872165364,
    10073075528533547062717300146078400],
    [166362227509783404984961450415114000, 175915118720270311773168541126668000,
    -46635138656713992091094519264011400, 31535420516706017748102790419549600,
    -24370936454186124892706613307567100, 19654599521175564231983363801624200,
    13026047364613938567804983246513300, -10414855621420356193220744971148000,
    8102281944558597491323043525137660, -6042889950415227051601295969050660,
    4221940685220644013644617226209280, -2646296860305239676381731335599160,
    1344572729418656145376004216368760, -383635400718623012778712595397459,
    -16035418051517093577375915085459100],
    [147596657935835599495579379109451000, 382453177464055777555361371553767000,
    267898051167929837529673866714673000, -61612578218982645270194560467695800,
    38854077848574899565079702528878000, -28725872715850090338133088923703600,
    -17688266043438791339449210704407000, 13895780566306664520991487556754100,
    -10683344102573672584935333597730300, 7903339433918738165138175139805450,
    -5490701909294075844154804324005510, 3428371523667448991096341839815070,
    -1737689484190629313492956074811260, 495161011043642971631230913928475,
    22380918470861214892566794864197100],
    [157597621061541406071917707671331000, 335931318479854185736211582802462000,
    583100851091268661824035925215984000, 348926694815385786119511986277571000,
    -73794094617397638482729689562388500, 44109680181259070655551609220608500,
    23528092447386043707897006800931400, -17928315891597557958862692602105400,
    13514426363325421123034586481075100, -9866096673397801654722518397268480,
    6792660004512394341631177547000470, -4215637160757163978197289765209310,
    2128536474583829332115800266797700, -605313101682632124896863746739518,
    -31309080275134241793428601279741100],
    [151094077411841340124542675513073000, 362144152536475076570565761402277000,
    510754948901790939145299350867404000, 759798064004408833045786853890249000,
    415673014542484833883002151203022000, -82827733654088050318484488653335200,
    -32303967439495117104994425728498900, 23355819661517656429844391048619400,
    -17052285606943203350745274894822700, 12194819541541358762432927638180500,
    -8281857090883907614047580108880660, 5093641294939239433414261347308710,
    -2557384448472954673624621572137710, 725131747848474283504476134943536,
    47328695554341243697369855643044800],
    [155763030989084244329229244789970000, 344401095551792856353578159705013000,
    552331478312634465959558708141656000, 664782993761123615184061906266898000,
    905323400785462625916172751622854000, 465402500038905527567001404666057000,
    48467929814069642630079463727221700, -31782242357116309490246591821919100,
    21997331868474014088679397338892600, -15230203882628408466694159087013900,
    10132184771003282554155513773075900, -6149616868832095057972959307845410,
    3062540252927258735495876241507500, -864724368757241202958614665039038,
    -88394434055960328586176956296555700],
    [155025009302956829281881053093292000, 347305608049307295822013036311998000,
    545152787351061594892301878123766000, 681643199523595268233594122982296000,
    857860006893487479412995056538336000, 886264983355843505212644083221176000,
    506445604813903182201550499918798000, -88439574497094635466333548784173400,
    44540016721967549921358726110938100, -26513977808517811646990754132291900,
    16210190107176304005429849572845800, -9356685015201919832954144694419730,
    4524629391233327724324045941338890, -1258799322370487508739085207269560,
    1080597001132652517746925181003370000],
    [152729660096446532887154273776346000, 355523462958812372687600312419467000,
    528291945367959129786560876927991000, 710463622321110828606712156060207000,
    811775780039442352442256266787681000, 960621911492772619098913177211643000,
    1103178965569016832223985333301080000, 496078713317778941140295816109598000,
    -82928352889867348014811989769862800, 39657540279972049394290529502301500,
    -22021855816083159377205007692500100, 12086397341244596428562789331371600,
    -5686340482936214796682415476448850, 1561142017676738156463202522759340,
    944637878373826340839046195961349000],
    [154630934349343582976100582551061000, 348767697187613364810841206011829000,
    541945719204691770117320692737192000, 687721204859768289684868458782066000,
    846576232967598076232698461493058000, 908807668209337041045323411993222000,
    964423279813736721773021536110375000, 1080551860691518210866768588515750000,
    465402500038905527567001404666057000, -73977371700492958150168449216809600,
    33070395869647957054962066288243700, -16535375976774790900210974712309300,
    7429141888747767192758922548323180, -1996821008497902556087276903948190,
    1023939668992674191770838224041120000],
    [153041078232737867489637491751079000, 354387621889013578219961703825474000,
    530702461040920435625933472082038000, 706135246721655479853071552664022000,
    819151209543428309003571374767864000, 947857285684754258484748084226937000,
    1045195177067301481508095425566100000, 944828731081216638583221776576152000,
    1013632733731899105452487297985450000, 415673014542484833883002151203022000,
    -61944674373637260806762881335107500, 25041153434068735914048382561942600,
    -10313915095934453024228679148940400, 2672132568745001648599292372949320,
    968801606974040225850747241170577000],
    [154371523082268973898038831632762000, 349701700965956794214221281986539000,
    540011739496616839037545023194556000, 691060729626259177897392795008141000,
    841212125758367469420726820803313000, 917290573714485634010968222851039000,
    989363117180420320695203993036665000, 1023466506910692124074020233498940000,
    886695319896551984478451200111506000, 905140123702367306248733991968433000,
    348926694815385786119511986277571000, -47304748755408986764688191786637800,
    15898918960686437810125499450874300, -3831411080955064298775739785309330,
    1010085742527155440239454324821300000],
    [153271048969542698801510736972094000, 353567926924731252859830038328148000,
    532367730812192226068251391589531000, 703344091540065648083178776879147000,
    823442689651050929600866127266239000, 941488344180384727718938142929845000,
    1030579475671245155742550210542000000, 969776508164696667388024837354999000,
    959530872793661145472135898255818000, 792491951236394768200924599877166000,
    759465967849754217509218533022837000, 267898051167929837529673866714673000,
    -30622940023515154009024289300429900, 6169552044750742277562588776570890,
    978261646069251217759600144662443000],
    [154149845381304964785920680481420000, 350485664711121967400961078036968000,
    538442399196164914735729464764946000, 693631448945550928225379355328932000,
    837388919035384894817605598375095000, 922702718133252457642679765806976000,
    999865162263192425835296016591083000, 1008192844687074975857967547304660000,
    911150400556635490902019445530490000, 855716965539155792658710915713611000,
    666317969114065554490921182135592000, 582431240992573667150442252693358000,
    175915118720270311773168541126668000, -12596017529197063211819482529092200,
    1002572282256978238473812377190340000],
    [153515586543041220778263521013857000, 352708028043186492299303902441142000,
    534070721058793904661710561782412000, 700600545848320753424851922330328000,
    827425561778053647624860344631078000, 936039503589538305715368766083769000,
    1021183192427379064964755753670910000, 982084351107024335217874332073118000,
    942892512537179909799815657919898000, 816898987693397053895117325634411000,
    715241886168801380594902794212946000, 514298388766974610630553013885224000,
    380651002670184581552691777917386000, 76883104990293170886570983943011000,
    985469216880258710401187935393578000],
    [152205067962909603616678765363263000, 357516577923476838343019497729786000,
    523709704994615078630784944097975000, 719875245446854731616228980247642000,
    791688488804997618371713772903743000, 1013733352967678403148814799101980000,
    -90287755941210467820884333463481500, 47519548261731541441545436257848100,
    -29816911414961563964910367879528900, 19570249045527315323748035618362900,
    -12610232690339256367688183505065500, 7504156967900545272786856501355900,
    -3693225518271749141263230166130380, 1036549884139808885987694109675720,
    496078713317778941140295816109598000]]
  db := 308
  b := [
    1537662099805863417731419678860220886087407241671703713211414275211859473355858401951938536619970200125849559442973656509656558966535245682860606247440200440268957837268080817368398934233377033098322534979827704622218758933775277409498393104153504782786054118837258645792067478678146979296987196682830460390,
    3518302374405406235463370822533366923335401637716535991295364645719352775643711852242022603334696960967774492929752026940230742163864553964782780207687912395354844511880668903988342675918187132611945329894131108013892909185743125620767818801236636230455682117786153920376609980220032832905613055588209219898,
    5357961023358596750593477334293465170777185787905099034351119456093899742615789986284292856880431202219904383918752779063590524942028391199873541393076808106619185754505777447825030322442905471418415732863810631689778551277549883941870884250029295768447647052475458456531516696281578973775514405708189811013,
    6978533896307715722390239725551416126042513765775562160119556431554422227095390584038412868178566681907454444663831995205554586227457048141166712032200631863923972528799705986366803856514178215443159920090907345668232150777290506186878592789136497179274164905662499806197037025681512297512536141498954293869,
    8313460290849696677660043024060440556545009004920645366093259528177678160613925885535258714620776810742230770328592611370908573150854838774625873359180491034956146119293248188949999773688221555996238784868754270766445343663806960365826785066865693097128193472816959009632880306033454622277196216029809258764,
    9308050000778110551340028093321141225311300613896420140774786365500662775134958030947488444304966180269988854500692217653363510869409111094568254087622011972273167492276274919274938522793491733719115027660472336125208960510834848248600071736300196203426459049551404201134206739487028542342457035924637160946,
    10128912096278063644031009998375965741933107900473867839835205802571769937737303704669672035639401606767574133541499508865476231443597410963378329345695313061280427247793215159182525149891117257084623051989019354986720954086921452888818856184823550790916758282725648693014660380627746595112562478529759946810,
    9921574266355578822805916322191966240934627997877099674236896396456239876671713406665749958240891160383010427444654958823957387958052105660433067999944287655963512132079636156635223339464080229170491143647586925620862848607538671782148026159866401343023420141507441613828351583304372454333414709302649829266,
    9308050000778110551340028093321141225311300613896420140774786365500662775134958030947488444304966180269988854500692217653363510869409111094568254087622011972273167492276274919274938522793491733719115027660472336125208960510834848248600071736300196203426459049551404201134206739487028542342457035924593310703,
    8313460290849696677660043024060440556545009004920645366093259528177678160613925885535258714620776810742230770328592611370908573150854838774625873359180491034956146119293248188949999773688221555996238784868754270766445343663806960365826785066865693097128193472816959009632880306033454622277196216029790738017,
    6978533896307715722390239725551416126042513765775562160119556431554422227095390584038412868178566681907454444663831995205554586227457048141166712032200631863923972528799705986366803856514178215443159920090907345668232150777290506186878592789136497179274164905662499806197037025681512297512536141498847014021,
    5357961023358596750593477334293465170777185787905099034351119456093899742615789986284292856880431202219904383918752779063590524942028391199873541393076808106619185754505777447825030322442905471418415732863810631689778551277549883941870884250029295768447647052475458456531516696281578973775514405708140197696,
    3518302374405406235463370822533366923335401637716535991295364645719352775643711852242022603334696960967774492929752026940230742163864553964782780207687912395354844511880668903988342675918187132611945329894131108013892909185743125620767818801236636230455682117786153920376609980220032832905613055588143487435,
    1537662099805863417731419678860220886087407241671703713211414275211859473355858401951938536619970200125849559442973656509656558966535245682860606247440200440268957837268080817368398934233377033098322534979827704622218758933775277409498393104153504782786054118837258645792067478678146979296987196682840107698,
    9921574266355578822805916322191966240934627997877099674236896396456239876671713406665749958240891160383010427444654958823957387958052105660433067999944287655963512132079636156635223339464080229170491143647586925620862848607538671782148026159866401343023420141507441613828351583304372454333414709302625108573]
  c := [
    60037409897572857552171407066937045, 313633037996470478461205261448951921,
    758967082947863918996758396128915725, 1377911343199149762919069726930308862,
    2145139136957305762313866313730446776, 3029243264612183150513963145094772552,
    5000000000000000000000000000000000200, 6005970469987172611503141516972982690,
    6970756735387816849486036854905229790, 7854860863042694237686133686269559020,
    8622088656800850237080930273069692170, 9241032917052136081003241603871080990,
    9686366962003529521538794738551046800, 9939962590102427142447828592933068000,
    3994029530012827388496858483027023340]
  dq := 27
  q := [
    [-680785069834758720415639474411158, 2387450175143269978211564850191130,
    -4652428451027833251915992495527550, 7187728241153539312417634345880540,
    -9662262498214108244582530831758100, 11746229640598763251697312299119700,
    13778989912616810626969718146218400, -13493401410640508895211412270775500,
    12352568434613503769072110950468600, -10484165103529634330187497854317100,
    8096991682747488487064166904233730, -5466034888092948976455028805923970,
    2920276676375858689755283604300870, -856461606004360269012387093190528,
    -13174694729901340437650016519291900],
    [-1227189814039332457150899828491200, 4275962049424866665350543722022600,
    -8258359679223970730275268525964920, 12645634418155726913022693287927900,
    -16873430525122619293301713422946800, 20397694697223125853825117312393300,
    23760656723799948699906309455565600, -23219070455122082315724858730874500,
    21223301764746753514455531381750200, -17992969944866638515475859582665500,
    13884876361361944394453458454943000, -9367986914919765201793488253271320,
    5003108470356914501185636479427160, -1467034432827992998512732968714570,
    -22785192212925115587271137129294000],
    [-2208225375778588857465911926740160, 7656535016046829553481306485700560,
    -14685770130673147911085053365835200, 22331616640732749630705598809253200,
    -29622881497011750605554546817879800, 35649124096982981814806047461974900,
    41291637729802874442913205582170800, -40280738607981780843218773650136400,
    36771896480453049887255894259648500, -31146099843295609563303880532513800,
    24018851583534957288423669667013800, -16197714581839795028045699986612100,
    8648013323971985366112149723698920, -2535404359292556286499794390965040,
    -39690840136279007524801881696853700],
    [-3974685222703838353762857117563710, 13729577659357959747830901846941700,
    -26194161229624196733979459504932300, 39615313413002385058973727150733100,
    -52305888706454792624994192701408700, 62720975732375420925644431662102000,
    72317181451532716847725986624344000, -70447471565707283593242738617223400,
    64244195251384262215501413225258000, -54373899333309474870734304137632700,
    41908228948039229914680451940505000, -28250977090252365471054551519978100,
    15079536936895100423077854367208600, -4420399858848008134286563478807300,
    -69647526129629090273727010241986800],
    [-7166881097221111210502558293969860, 24684744201786558213009709076210300,
    -46901023345814816533940975756687300, 70630869006365982481999961711510500,
    -92916342639121071473087698023331600, 111100892421312331071205416347470000,
    127630876996854387000059043484699000, -124189133786089696397270357348326000,
    113157710655561305435949814131901000, -95712511482204966247990880763377700,
    73736092446283389565126458382388300, -49690862079550784544141092332323000,
    26518089821350019665655767813474800, -7772643075642905844936251310348680,
    -123109877837792356270281881636252000],
    [-12959106197190533059630912002044000, 44535643720325248605722514877323100,
    -84347945802818779288279081015790000, 126604525893048729549081093965412000,
    -166073452145038327117102407441377000, 198129438142640549942608287778503000,
    226942726632100691293199612103459000, -220618328876755881671010876290757000,
    200881957478558658574691766561974000, -169824958433226615377492987087627000,
    130782642203381553665045637544399000, -88111599692866744444376834390145400,
    47013854575492239447126650120238100, -13778876261480206823875127780366300,
    -219176521063409338771110792319522000],
    [-23514726896640325438854924244424000, 80673467573067314465514822364992800,
    -152414826809378248276023061870669000, 228184490215900973866004753357739000,
    -298650369871108429028177226743636000, 355666306844077641400132185776309000,
    406437746752981128146950255134935000, -394812834946508555334528022186123000,
    359287819255770731293055501452539000, -303611008999867729375941301671829000,
    233738977670215623234524198230525000, -157441928495429209844426246429358000,
    83994955818413263183917774838981000, -24615551931313854993684520136838300,
    -392922516031210216192929605290122000],
    [-42836394856909584082176350285411100, 146769088385298966313232915138583000,
    -276762234481618911202302613954065000, 413524854970564392231615263869989000,
    -540279839475180684417750210160146000, 642528862770479737731849493478848000,
    732871505653103270583372071525007000, -711467346772302772606417297242682000,
    647141950448958685198052227758744000, -546662422233305061804549461273077000,
    420746023239141529334726628553226000, -283355339180254541871496140977655000,
    151152293650119756255141239884707000, -44294033933263654470991551708067600,
    -709076968053699702778970177668368000],
    [-78359535111987097662880226363645800, 268211540266987844693232014012035000,
    -505028172019709042801577660868361000, 753427665039090517625267406168017000,
    -983026768826167387466944469375027000, 1167777189272683163342435297499650000,
    1329941657378778027936620447802060000, -1290428395170086799834539367366870000,
    1173285384003670243010777695346050000, -990812476592693751699152883641692000,
    762424670030519799556467947168414000, -513384977185986242638499579106025000,
    273832863129047337552916699321164000, -80240723755616369692426814908602500,
    -1287619920341269172125135046360410000],
    [-143947470709756941524794385682573000, 492328971347832618213587510026268000,
    -925987857856753248708644801561868000, 1379787775900951300056219776516380000,
    -1798333189528306494336588063406760000, 2134429897742965036236696504655270000,
    2427769119743355645358197985025470000, -2354594152288752403969658005827700000,
    2140105195363441101428449149693430000, -1806796726758236145688027562991260000,
    1390059429388408616595091617871580000, -935889883658051646782125092206517000,
    499152531258973034955249614860724000, -146259878073335513246282776957868000,
    -2351823761766566391188349791164300000],
    [-265535342587568046226359459973842000, 907646460040234877575524074211406000,
    -1705646675988582236920422978386290000, 2539163463243806671814691349148780000,
    -3306577034201116583403900441442260000, 3921745300490479277753501725344510000,
    4455975702532393518085221942006090000, -4319996367940633418304780599027080000,
    3925274824656042460283610380059520000, -3313179376671396585440892260156570000,
    2548584064211512409428892854310770000, -1715711120931668151935079501769660000,
    915007828737768311758547858392052000, -268103660654951880076546043611482000,
    -4318648064839224282592973449682480000],
    [-491788906000710439528483280348470000, 1680251122295384240477956917948630000,
    -3155382478753371174268498226742400000, 4693890412102354908768705999479530000,
    -6108325053721027358621354196672810000, 7240432051563296052374347873399990000,
    8219158540240299918101009489415260000, -7965590141111089440431576837680210000,
    7235798188640997243708339985204850000, -6106237944119266411854668454282630000,
    4696424393487617018654318697280920000, -3161359943999638503151236751749040000,
    1685901040133154557707627999509280000, -493968256597486353215625018711004000,
    -7969203024070974915891801877342560000],
    [-914272692980798144180138885854272000, 3122592944777461041313125357047610000,
    -5860842341560018605538062448272220000, 8713298429147630728983697414354820000,
    -11332471883568539494118458678846900000, 13425989716000142330287127073725900000,
    15228342619577443789832384467554200000, -14753905684211463921695349041065500000,
    13398889445362899448908228339339500000, -11305209229398364256792946383247300000,
    8694018557692794305809087912224060000, -5851883230831492261669099402567370000,
    3120587431933706395683226565898480000, -914313711211743903425122984126065000,
    -14770820370646509532919113684403500000],
    [-1705673815933657518166643573033960000, 5823865068474023441542363299795970000,
    -10926159840922406734328095964924700000, 16235912347104771360106031125093900000,
    -21106124508014977284105403044219300000, 24994018455961719682560310766604100000,
    28328109111546334479040763744176300000, -27437638804393429822346555791660000000,
    24912192125341416208165929178274300000, -21016177887218966452067613446780000000,
    16160415780291487772017538789546000000, -10876848809237072543698521049322200000,
    5800046117471606616438816765097140000, -1699359011831063461389946228646730000,
    -27486576328562113418930354012044700000],
    [-3192345609935050717448896276580650000, 10897420034073183203700632088066600000,
    -20437305164381262875286860379625600000, 30356477409321491030182760258336400000,
    -39445625982176676171373387895898500000, 46692922281189313006703208930927500000,
    52884879792828820649115832771414600000, -51208866819024242056432994244937300000,
    46486140771539462881337070371089600000, -39210900876710768457424662880743300000,
    30148880966255002453377187361545500000, -20291049287504944134980373870130000000,
    10819963988939806353307468448262900000, -3170132055843852668138240246582970000,
    -51330459448497353090570322103133100000]]

/-- `icoeffs<16,long double>`, generated_coeffs.hpp line 516; `extrapcoeffs<16,long double>`, generated_coeffs_co.hpp
line 175. -/
def gaussL16 : GTab where
  s := 16
  da := 37
  rows := [
    [67881148529385237129451431140045300, -25498156016664206079456906722863800,
    19090991781367235287780117522942000, 13003863616733528913114905878975000,
    -10994139781046749674388173336337800, 9288103824611657877130079295830670,
    -7784002926380169702134718188431290, 6429130730581915724804023106035160,
    -5195917646173007270737939025833980, 4071213210203503446028792459317630,
    -3051128387343546561039132066646280, 2138687394230921252770344619166340,
    683510931380568197932759579296331, -15529395863544585253415687468257000,
    -1343427515586135328495953773510670, -195156840005830940114810271390690],
    [146883557390946385758642521469263000, 155633809846619732157109592485944000,
    -41413271759676399687886123285391700, -21934548256779801698232384368104100,
    17874391815362417534307184128905800, -14782998956699254659620872249843600,
    12224834918901486662550983922007200, -10007893356583098284265267900834600,
    8038848222799409616863550001819950, -6271516289450236680236053389921740,
    4685546029915049348169215543251650, -3277060174634332793009939762400500,
    -1044677562629607297805162854841190, 28162406632917972397453634422966600,
    2055336417707472636010262422371980, 298119715119924600006781741765009],
    [130314887570029239238070779942658000, 338360541380276180593656116868798000,
    237896279206231962024812769005616000, 34965221728233376204756756664101900,
    -26118396911344918838412069644965700, 20626223013383700780200881773163100,
    -16592708237987142600005146280331300, 13344517508772085358742016787052500,
    -10591002356818958553630255734093000, 8193607286189947322303227691570780,
    -6085292897306367701951389899765670, 4238160161762199567899375059868810,
    1344618916578405096517540654446090, -55018926340021947013064969986134900,
    -2650409352485076369687878669461700, -383332614651404512547242794488369],
    [133402027362754284067900662363016000, 320395557786961649790658295553046000,
    453551063258562077032403018991998000, 373989972041441830203754326368696000,
    -75271621138861652286585695402240800, 43579823192358834484311221471444100,
    -30262384237201827832427139438507400, 22386097675604934767208092370727500,
    -16860315401966160033782622435825500, 12598276945014187268768328000883500,
    -9136508357384329216680435353521490, 6259343264602944218108332417336220,
    1949863457212101106873368779890960, 678462253281563804520834767661078000,
    -3870875281086092160964376759379330, -553795862795328163738964832596964],
    [137527040949456381585719692773963000, 304689428780194995010284424119904000,
    490485387199112662446557436788485000, 814547479489546900093434676951639000,
    422891298487506345473280197575900000, -81360284456846337803188672589445300,
    45370736866563632587508732854624200, -30426448597026510203678278161461800,
    21712009507061794108832475228925400, -15696206873226618810990253696183100,
    11141466517016534743973207886147200, -7524438870857332119639368809606390,
    -2308063507414807778971907552120450, 593603918070741529829473498398750000,
    4609290126406436665724983393469570, 653498025627462459581939919122352],
    [134381190018423601612728088869929000, 316307469463899425607317444310215000,
    465043796221450675754501548802689000, 712277617588559187531155126205067000,
    921151518921634601747533085146769000, 456508537612308972166909169923050000,
    -84464279352307483871399338538352600, 45438011992097321028817306448763600,
    -29374365211792359436954377303753400, 20113139485273172272098028978117200,
    -13812641749859785845112299207562800, 9133389052748064374386260108777760,
    2740620322758375661951473382561610, 642830051583429101538245285291243000,
    -5519195910179025934558857249425170, -772613934738410359920452470569326],
    [136877916707669093796072977755514000, 307250535496773673535467999086984000,
    484126854179133761310679478949778000, 771876047046273585479673839730614000,
    805272007369102555810475990728894000, 994428614738752770173381402428347000,
    473626526137671240713491808020708000, -84480334210376835350948482559328300,
    43795774226744824315160084110475400, -27167144670904205412313519443394100,
    17676746511834719053267058386494700, -11316375856459322206356513041536000,
    -3288596574869536832783810068553500, 608634670250274359810760616176631000,
    6702772940163651068670276482816580, 921436520028463808704116130765519],
    [134840860538742010450198746149325000, 314556216268109001147002995040442000,
    469089785472300272980955261528415000, 730303197571048941354241594350898000,
    872949741645916896358873914595194000, 869221300997873120018658255735624000,
    1031733386485719316777932098600740000, 473626526137671240713491808020708000,
    -81411539514134825839563062582247300, 40510589605910135136084404422905800,
    -23896102963389925072165186993221300, 14510186027395000451620794783450900,
    4017084196465790778751185884904920, 634461232134128682468737924001618000,
    -8334295766669837261053940938546580, -1115619648898619537170115475423510],
    [136534910993508884618823314750660000, 308526999370481088652267711589327000,
    481311754322642949984184395260656000, 761792585832743446252620951944955000,
    825669457489739518674462366173683000, 942391440436410303770772717149853000,
    901815040283245160398166309592652000, 1031717331627649965298382954579770000,
    456508537612308972166909169923050000, -75368921946621910800972689994969200,
    35702326494324472876353526532325900, -19685195305759741275863874331161000,
    -5039849770659961293098259338326870, 614011467224921295887995150851304000,
    10748762191013248295123989208541700, 1381107040346872646174773410161610],
    [135108799033143011799320922360968000, 313575683200654272093191092524009000,
    471183268286057487383900554617762000, 736838477565867125663535444851246000,
    861478803848239309757550648847983000, 891305065717556150224985864617174000,
    977679500872368991630661894202877000, 901882315408778848839474883186791000,
    994377359681464282137007012435545000, 422891298487506345473280197575900000,
    -66567535406663239685926024214245800, 29540938206927830432907912561331700,
    6578190913044469303934760851984430, 630669295148526692382020779769688000,
    -14692828786648738396931898777253700, -1764743890685907326816830493872170],
    [136316092921565802422641827112687000, 309317756236027363207345816191998000,
    479663433693550016210589914770610000, 757116452440267989624189088090914000,
    833184320029998503677792067150916000, 929877390626584104367600962281925000,
    924866954599737546659775523670688000, 977515436512544309259410755479923000,
    869437252032259109849507118374656000, 921054218113874343233146090554041000,
    373989972041441830203754326368696000, -55317397003894444258453356700995800,
    -9127938093722185476439110581157800, 616885513013066416044273078542746000,
    22241495153901847017222519019233300, 2360269696016190191002199917074710],
    [135296349036562863191162942201955000, 312904546821617165141440676077688000,
    472556577169880921728028129867975000, 740466661773180896227734476220056000,
    855995373963959978740743695689147000, 899635050040873503460093591141703000,
    964455266917309385424293315073437000, 925195872688501219803829673392555000,
    941859356858218591189075637583719000, 805687246460556153515767050519785000,
    814379117727585345112376205942748000, 311572428138834680131190705480041000,
    14067427804547875942733189297543900, 628342944281682934073314379887084000,
    -42008845071428099960668633003542600, -3383332836868244245609061134682000],
    [135464177343650549658896080538326000, 312312297255869071612024347826730000,
    473737221994756451413615275588859000, 743294398052968611059339437194141000,
    852054113264462927626796448541722000, 904978227001818534716954789844280000,
    957260945631925579711248883942250000, 935028217356440994764432632119408000,
    927800074181317198993439212095943000, 827908205159650273412253211022894000,
    769914492339663462105741037105497000, 594982449644751387864927776537115000,
    155633809846619732157109592485944000, 626421916452303693055391350722483000,
    517205830172140323737511661296623000, -11121260332175911499739659189172800],
    [139145629895638718504511923414773000, 297200191888691588371485995674345000,
    517801403483892024010294171014774000, -66399173644701684704867553205355000,
    40095350514456537430793344632015200, -28842281633600646855257297737619700,
    22057179586841261623153942648860800, -17202214641966903997309699032021200,
    13382025183744440873724748704396600, -10212776988947287794183300537347700,
    7513282309702764179774176517336690, -5198088004013573810932968927001620,
    -1636927128377700827221491105799100, 311572428138834680131190705480041000,
    3235981242583002321597408143256380, 465948022207611067739920078135380],
    [136145629673421878771450105074579000, 309923000776661059217701644317442000,
    478442967764949000419313416680693000, 754065236980190028109460042637158000,
    837588989688822743624257167460229000, 923608077581436902887448595580193000,
    933908534766570396068241599254363000, 963845760513329624026988762321747000,
    892390852211234243553617458072937000, 871900993886357609784972464796766000,
    713014722354650284202751896073291000, 678163782617691307275446380946217000,
    -27092921687036716279436931896909900, 618906696115907160694482035900213000,
    237896279206231962024812769005616000, 5447409488741235020832082337432620],
    [135957453898776305199017672551481000, 310584108761858896116286425392592000,
    477135985928050059378121491784742000, 751031072470227206968547784804039000,
    841711383764809187500531602692482000, 918212992870790951604556278871934000,
    940823921544760565702179592935380000, 955037055201722651129118334229847000,
    903728971400006286456688260550269000, 856776736756059440620948568488138000,
    734976080466150131494393746858418000, 638674252141213945515797098428339000,
    336765775709903670393676091694752000, 621006168883438439009611066340916000,
    456701566631096688761845420488289000, 67881148529385237129451431140045300]]
  db := 308
  b := [
    1357622970587704742589028622800905175613368778338039899530515953690205683210808662466288961451544044994871299770430337735418759871162609791418822630773399027093393816289385867376644876297089520357890246472587023348663853435641274731130778810880142928295412991382841805703061008829027988806128058003877547703,
    3112676196932394643142191849718884713749325417645342895065175790976786944352190953060585476842586726633387042185052937420475513669653442921875217346393677695151252891643356164272210626109425362223674574637359392642649408929261050071846664767069267777862785259157274378109866792034473765563004995461123720529,
    4757925584124639240496255380112311317763175159185632907841114361481587978884097972351247866040249324450629457481047074153017406052666142352608634091968155261569803133210129419689677879310915390463774922804632121893030806903630733227532371010258715467310191934084094369686618647297362276785200433935585656443,
    7479799440828836604075086527373927448524553410391823340271098109368020201020899122588931920152962903703334893554907760087208044119739021846663675543538419463877819292392990563955012739273696937670870798163232266833383332792624825155101056584136757378665446813971497954241549768890585904509983692531883301132,
    8457825969750126909465603951517998110581973670801414087254146784040183210496526546607766127103911402378083315145871556505351225970087428386726254792813881494456321387133675296521599239958266595762668703761285737647214482204979808287244652472065431660642450331817808298224851314543816918196374671122526857723,
    9130170752246179443338183398460996969177811182732464120924757218971523247505558748020021255849263765702251237340823601796617072658837518386156439509699275247966444901838896699176304727316467884355196905923215179837443757065114440558067867598943153303747325047599574406585243190904299767503059938028225420036,
    9472530522753424814269836160414155257345449419795148751875662260001144538456650315006698891676697614126690282160482116485418260877020036558451940947159222057979078063835592298080867490879871398916844560450980131471324530736467199090820189703094192060817254372017848232325943497636379982407485883403531555198,
    9472530522753424814269836160414155257345449419795148751875662260001144538456650315006698891676697614126690282160482116485418260877020036558451940947159222057979078063835592298080867490879871398916844560450980131471324530736467199090820189703094192060817254372017848232325943497636379982407485883403333344607,
    9130170752246179443338183398460996969177811182732464120924757218971523247505558748020021255849263765702251237340823601796617072658837518386156439509699275247966444901838896699176304727316467884355196905923215179837443757065114440558067867598943153303747325047599574406585243190904299767503059938027679422200,
    8457825969750126909465603951517998110581973670801414087254146784040183210496526546607766127103911402378083315145871556505351225970087428386726254792813881494456321387133675296521599239958266595762668703761285737647214482204979808287244652472065431660642450331817808298224851314543816918196374671122127735933,
    7479799440828836604075086527373927448524553410391823340271098109368020201020899122588931920152962903703334893554907760087208044119739021846663675543538419463877819292392990563955012739273696937670870798163232266833383332792624825155101056584136757378665446813971497954241549768890585904509983692532133026079,
    6231448562776693602623814109600821007244342961110133997237529521470548196073267679898459500882784218010752472361384615816493716780833799756099015137653969751905886513655973690927682420854266910249079287786708146326289827932280668878256419053552339422659133249969060555122865779864053396228762327513866744923,
    3112676196932394643142191849718884713749325417645342895065175790976786944352190953060585476842586726633387042185052937420475513669653442921875217346393677695151252891643356164272210626109425362223674574637359392642649408929261050071846664767069267777862785259157274378109866792034473765563004995461219664102,
    6231448562776693602623814109600821007244342961110133997237529521470548196073267679898459500882784218010752472361384615816493716780833799756099015137653969751905886513655973690927682420854266910249079287786708146326289827932280668878256419053552339422659133249969060555122865779864053396228762327513836001130,
    4757925584124639240496255380112311317763175159185632907841114361481587978884097972351247866040249324450629457481047074153017406052666142352608634091968155261569803133210129419689677879310915390463774922804632121893030806903630733227532371010258715467310191934084094369686618647297362276785200433935552934972,
    1357622970587704742589028622800905175613368778338039899530515953690205683210808662466288961451544044994871299770430337735418759871162609791418822630773399027093393816289385867376644876297089520357890246472587023348663853435641274731130778810880142928295412991382841805703061008829027988806128058003895390404]
  c := [
    52995325041750337019229132748336921, 277124884633837119610057922326957759,
    671843988060841280597660511438034541, 1910618777986781257766641179756044796,
    2709916111713863068287902785082112682, 3591982246103705433847697492697518874,
    4524937450811812799073403322875210299, 5475062549188187200926596677124786930,
    6408017753896294566152302507302482140, 7290083888286136931712097214917887460,
    8089381222013218742233358820243954410, 8777022041775015169475505974237212300,
    9722875115366162880389942077673042200, 1222977958224984830524494025762789730,
    9328156011939158719402339488561966720, 9947004674958249662980770867251663300]
  dq := 24
  q := [
    [135465586136337391900281724085720, -460681378644386487887601593772952,
    858568449225997832682178025409777, 1629807732709736414532717051403260,
    -1913730754592002411550126783699820, 2091186142274765117335951160811190,
    -2150058053609441027920708422606470, 2091021969561340135668942134563070,
    -1925588535542481751122148126466670, 1673523948541228193173827641858910,
    -1360201074646018060288326113568130, 1014354364806910091513545505493620,
    349584899423826116223953835347481, -1265147722206594526905280510689340,
    -666637158937146244809428227231107, -101468413496771250043602267236614],
    [213698102776088093102068660799828, -726651643725632218446143588957117,
    1354004975981241267231631768320370, 2568840128649490795049364253092000,
    -3015293660705434414688303083770360, 3293664297329669601264399145799690,
    -3385101998963874217516486811761890, 3290932468681704668049247877985640,
    -3029510421079209022956674367125530, 2632110049829188103482221582262310,
    -2138732812724691596708765509108650, 1594575370890698056304665503917760,
    549388050833458226665432022937496, -1994694419564595112227881012582130,
    -1047777239120367829566984886678520, -159451248582420824011235117577176],
    [346179119632867422180361892421379, -1177001850170086970813010557754350,
    2192730225567462523972542666450350, 4157572485556890250083587778525610,
    -4878309665799606894666315156148270, 5326537343815842829878048010120830,
    -5472175222804487605596293962671160, 5317822030704863944340357627055600,
    -4893552448908498638421687784512610, 4250190222006765236123208854838640,
    -3452493356392243603809123225342600, 2573448851370919797937744537977810,
    886360944215550505897410531842017, -3229410478518434650086714865323670,
    -1690664736384094202237476774150760, -257233463555048944287832531353201],
    [574550352097123966490317496104936, -1953229206568602785754511175202580,
    3638078528918609647833651612502570, 6893730525021652435350622201239140,
    -8085638146938080354761570142072250, 8824877076883574636930200804892120,
    -9062308063200387898059125210082740, 8803021269000010595677282682329270,
    -8097519092602160977616613518140710, 7030431561111078875060252385540710,
    -5709164909312324841331739053744570, 4254460693458659023310581920142100,
    1464852581122893695466574853072890, -5356578874153114295046429102369610,
    -2794477718409052467845224081419320, -425086576174537446598152390992177],
    [974350531965399648673486895160017, -3311986937891564869561336895290640,
    6167614970622412394270370271466780, 11679485068456099553133292618662300,
    -13693417224066832032914242329471900, 14939026732038837827997398403955500,
    -15334326360217914685166205943918600, 14889281087626754223406615903119000,
    -13690544056980197124955080774050900, 11882113518683682022613010623605900,
    -9646011752449336386779167511611190, 7186322406603378066070266799082510,
    2473474106598898561997544043256880, -9078385000871374768248645654073250,
    -4719274302802175588085087797724490, -717722787110710841393697038135016],
    [1683639220149799233552500121444510, -5722307309108813386286201620210750,
    10653943645730544004430442875905800, 20162445976231587764492841503731800,
    -23629833119636894646306650986085900, 25768448096671552191267800460437000,
    -26438923570212309881517710587021300, 25660761394123745937037552680637000,
    -23585423854573974607918624814247200, 20462556200140462289797831096108500,
    -16606478192292082167066071910385800, 12368681886036610621214826885179700,
    4255741468718248667426514089824290, -15677567270367772196617266803981700,
    -8120902095742141463700641478604850, -1234782475696525449922925969436300],
    [2956394630170221678042791241854110, -10046957023225227015484611565133700,
    18701931974155927640993750212589900, 35371373580073241760429480168262300,
    -41438339848239955365964086801939200, 45170081507696145466934255097425700,
    -46325822386943797666293574088865000, 44943720659897694989541773293961900,
    -41292704800616863163122076450018900, 35812554647121194048636544401145700,
    -29054849881079333447910598173551900, 21634813844841858349431199048751100,
    7441461458940166218813456391525750, -27512784554086769289885148250356300,
    -14201937753428819275723117185088300, -2158936055127443249799981819391470],
    [5262505960883828639725599697753240, -17882015706935234235254725635080600,
    33280060395448504489226267877817800, 62905859082265773217131419906548700,
    -73668167129708585435379176569425500, 80270297293620487997880247249738800,
    -82290439773925255711270888297421300, 79803248558785440270015717869267500,
    -73292537064837855050520225875176000, 63543572743375190021964481865445900,
    -51537593411542765725009700848400600, 38366318949225397770661970005155200,
    13192044135242133612127005766242800, -48945867637951532996747744580762000,
    -25180265967926475172928584706549300, -3827020425888652812666492005594070],
    [9475650364309034496406657859453220, -32194867184891361029635889448445900,
    59906431484357174065213241023700300, 113170276042200029252856885256574000,
    -132484717799703171531639852430712000, 144302499393943397971000718016006000,
    -147875817260534326171352825233778000, 143350721830768467417306323818018000,
    -131607205015484831587561504088862000, 114063450821080379111863443581742000,
    -92485254952719229287364590207726600, 68832490356004933655444526621698700,
    23660117017298973658601414405939100, -88083374859501756192039232599834500,
    -45167088140972117323998266541073800, -6863312096039072121054203243502090],
    [17227359025051443079978407104066300, -58526448357563148654643317124554700,
    108883438463478578592329689603019000, 205581338087554129386881965253243000,
    -240584938694816488729366701882097000, 261948904020391694197375057803596000,
    -268333992994466946743589072609106000, 260025938266161633796276775969695000,
    -238640001381177234205884008005390000, 206761920804096751298756009823921000,
    -167600285203898629145930001818213000, 124708077425131338242926468690478000,
    42853318005551819812994532469009500, -160057445931818799762669078474389000,
    -81817195768245910130755116179426500, -12429985765324803316754741798192300],
    [31576068889588221023231109203500000, -107262890123747067473050192246173000,
    199519643417147285924522119350000000, 376514298828259568627938630150477000,
    -440478056514774096893247323736062000, 479423779431057655464464639163514000,
    -490932241172344318313226379903544000, 475562479272391469294284223711539000,
    -436302030664672334673287212196292000, 377903264429747490970688017621934000,
    -306244199181637611363413617880987000, 227819298485906332866534475739444000,
    78262193238089896308388825989983800, -293223157785053847250225304628886000,
    -149439347908153424422177016959302000, -22699102641708868786384208593783700],
    [58274418286612118523741375364734500, -197938096311649591028306775784207000,
    368125245178410352250250551137856000, 694346133516680423273414827373877000,
    -812051159771349038486919924147219000, 883553153296300335165238777670035000,
    -904449702225396765096183193685514000, 875834658131935830574279554145252000,
    -803269018580641923822604919955700000, 695546285962339095525897011935226000,
    -563509250312167449070680108206096000, 419112300516614172597797992326083000,
    143935745017730938301449359870104000, -540893277127645259415525823057143000,
    -274873153282338733162107263965912000, -41744282295345716034653911922282400],
    [108174897022043774913286819217461000, -367400605899282814785510162318200000,
    683186806881003286667446139847790000, 1287996174504945698201199247965880000,
    -1505888003465288942512333242611170000, 1637956871585299320848201922408200000,
    -1676140799726669362026949879648820000, 1622580314638859732552294346710860000,
    -1487682371691467380635421396926070000, 1287811009974804815436590277129500000,
    -1043084524915389521719347092234840000, 775638475396162988558284058656091000,
    266304976097499642959649999835576000, -1003606325721146310431087232332540000,
    -508617894321550326460552733481756000, -77229000359742207127828769831920300],
    [201805253626465064381466294889615000, -685345516813585467883937519823857000,
    1274223717080315664122903908705190000, 2401180802840002183430442171138230000,
    -2806593081930924346263249736661000000, 3051798239448782473695612317585140000,
    -3121952418114682912555034320877300000, 3021244837878840636497876836875010000,
    -2769240062752228526954708621870510000, 2396538538713728547028212959879930000,
    -1940655593471543423846979851972740000, 1442787490721658054332028045353480000,
    495231982313350082869824911346474000, -1871465351302462107049640478712470000,
    -945949168472138123493071668835338000, -143609669765500883728244171793124000],
    [378085907103031653818728155860857000, -1283905277856696221457964744577980000,
    2386758470703031243945100009331570000, 4495731917225065328479753810498020000,
    -5253355708940907521072056761589580000, 5710648002651159610800769629545420000,
    -5840149641780379050346693070915160000, 5650060340475152014206599478967950000,
    -5177303485721183093231583451724400000, 4479339818011935988427101872605200000,
    -3626425905973369154258939631377190000, 2695566989326953894567108124952110000,
    925011744460729384465661449729955000, -3504779438485951928940716810878660000,
    -1767060043926485463203888816308520000, -268223687272014518817131952143896000],
    [710965349508295549690815343928992000, -2414114337354327328305505081291890000,
    4487199127995026678243775911953440000, 8448663366342315266576285516935270000,
    -9869863043820977833574181242109160000, 10725983504905154222279222929546800000,
    -10966021616409362165313216388663900000, 10606028963649870621162851600667800000,
    -9715922009952873622195386943480320000, 8403986581342529004921845331679330000,
    -6802282972748561868831084589431080000, 5055295951991784948485671520445600000,
    1734357631372836814409502079035010000, -6587904280969740399785729290066120000,
    -3313492206536666872525074136841090000, -502880009315234999769261500204813000]]

/-- all specializations for `double`. -/
def gaussD : List GTab :=
  [gaussD2, gaussD3, gaussD4, gaussD5, gaussD6, gaussD7, gaussD8, gaussD9, gaussD10, gaussD11,
    gaussD12, gaussD13, gaussD14, gaussD15, gaussD16]

/-- all specializations for `long double`. -/
def gaussL : List GTab :=
  [gaussL2, gaussL3, gaussL4, gaussL5, gaussL6, gaussL7, gaussL8, gaussL9, gaussL10, gaussL11,
    gaussL12, gaussL13, gaussL14, gaussL15, gaussL16]

end Odes.Symp
