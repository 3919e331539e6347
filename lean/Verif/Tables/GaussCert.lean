import Mathlib.Data.Nat.Notation
import Mathlib.Data.Int.Notation

/-!
# Gauss-Legendre coefficients to 90 digits

Not in the source.  Nodes, matrix and weights of the Gauss methods times `10^90`; only a certificate: what is needed of
these numbers is checked in `Lemmas/GaussExact.lean`.
-/

namespace Odes.Symp

/-- nodes, rows of the matrix, weights, times `10^90`. -/
structure GCert where
  s : ℕ
  c : List ℤ
  rows : List (List ℤ)
  b : List ℤ

/-- 2 stages. -/
def cert2 : GCert where
  s := 2
  c := [211324865405187117745425609749021272176199124364936561990698836758011163848533327153142302,
    788675134594812882254574390250978727823800875635063438009301163241988836151466672846857698]
  rows := [
    [250000000000000000000000000000000000000000000000000000000000000000000000000000000000000000,
    -38675134594812882254574390250978727823800875635063438009301163241988836151466672846857698],
    [538675134594812882254574390250978727823800875635063438009301163241988836151466672846857698,
    250000000000000000000000000000000000000000000000000000000000000000000000000000000000000000]]
  b := [500000000000000000000000000000000000000000000000000000000000000000000000000000000000000000,
    500000000000000000000000000000000000000000000000000000000000000000000000000000000000000000]

/-- 3 stages. -/
def cert3 : GCert where
  s := 3
  c := [112701665379258311482073460021760038916707829470840917341242623388651690806302096648071262,
    500000000000000000000000000000000000000000000000000000000000000000000000000000000000000000,
    887298334620741688517926539978239961083292170529159082658757376611348309193697903351928738]
  rows := [
    [138888888888888888888888888888888888888888888888888888888888888888888888888888888888888889,
    -35976667524938903456395471096604418499972558130550499550282695518676650573576380012396936,
    9789444015308326049580042229475568527791498712502528002636430018439452490989587771579310],
    [300263194980864592438024947213155539340260626609371839996704462476950684386263015285525863,
    222222222222222222222222222222222222222222222222222222222222222222222222222222222222222222,
    -22485417203086814660247169435377761562482848831594062218926684699172906608485237507748085],
    [267988333762469451728197735548302209249986279065275249775141347759338325286788190006198468,
    480421111969383347900839915541048862944417002574994943994727139963121095018020824456841381,
    138888888888888888888888888888888888888888888888888888888888888888888888888888888888888889]]
  b := [277777777777777777777777777777777777777777777777777777777777777777777777777777777777777778,
    444444444444444444444444444444444444444444444444444444444444444444444444444444444444444444,
    277777777777777777777777777777777777777777777777777777777777777777777777777777777777777778]

/-- 4 stages. -/
def cert4 : GCert where
  s := 4
  c := [69431844202973712388026755553595247452137310185141181192139039546735264252475567147918830,
    330009478207571867598667120448377656399712065114542823703523011589489984768381482761062360,
    669990521792428132401332879551622343600287934885457176296476988410510015231618517238937640,
    930568155797026287611973244446404752547862689814858818807860960453264735747524432852081170]
  rows := [
    [86963711284363464343265987305499851808837173958473385123132329879687966866477587930495942,
    -26604180084998793313385130476953109326166675118903399224241966628114277473511113330444834,
    12627462689404724515056880574618093565766472620711308508919881396078019545504022747085200,
    -3555149685795683156910981849569588596299661275140113215671205100916444685994930199217478],
    [188118117499868071650685545087171160056430625537041376016514079434859922201464555800855886,
    163036288715636535656734012694500148191162826041526614876867670120312033133522412069504058,
    -27880428602470895224151106418997410737773928702299716986740507841965194878393592230188101,
    6735500594538155515398669085703758889892542238274549796881769876283224311788107120890517],
    [167191921974188773171133305525295944727781805678672220449382889883092709421167068740101367,
    353953006033743966537619131807997707120099580785352946740475848082589261145438416369196217,
    163036288715636535656734012694500148191162826041526614876867670120312033133522412069504058,
    -14190694931141142964153570476171456438756277620094605770249419675483988468509379939864002],
    [177482572254522611843442956460569292213974009192086883461935864860292378418950106060209362,
    313445114741868346798411144814382202816559179462341921244815458844546046721540801391922916,
    352676757516271864626853155865953405708492327201956628977977306868738343740555937469452950,
    86963711284363464343265987305499851808837173958473385123132329879687966866477587930495942]]
  b := [173927422568726928686531974610999703617674347916946770246264659759375933732955175860991884,
    326072577431273071313468025389000296382325652083053229753735340240624066267044824139008116,
    326072577431273071313468025389000296382325652083053229753735340240624066267044824139008116,
    173927422568726928686531974610999703617674347916946770246264659759375933732955175860991884]

/-- 5 stages. -/
def cert5 : GCert where
  s := 5
  c := [46910077030668003601186560850303517437174044618734568563118856728114602541656576529428505,
    230765344947158454481842789649895597516356696547220021898884186470264407316122354482098166,
    500000000000000000000000000000000000000000000000000000000000000000000000000000000000000000,
    953089922969331996398813439149696482562825955381265431436881143271885397458343423470571495,
    769234655052841545518157210350104402483643303452779978101115813529735592683877645517901834]
  rows := [
    [59231721264047271878566010179979340660815000553103503895706972055429322100760774644998358,
    -19570364359076037492643214050884060018250364328693077195226772920394226538831559364964239,
    11254400818642955552716244215090748773065111297045028871862500290110252072253329658892422,
    1588112967865998539365242470593416237085049671132880673977090056929810323531254282922180,
    -5593793660812184876817721964475928215540752573853767683200932753960555416057222692420215],
    [128151005670045283496166848329513822193156024009611853796240938932730836536330181568363932,
    119657167624841617010322878708909548228073888335785384993181916833459566788128114243890531,
    -24592114619642200389318251686004016629904588178935093503115899580337356295555295950345507,
    -2768994398769603044282630758879595761318905081875354015814157856607714606319703976019181,
    10318280670683357408953945056355839486350277462633230628391388141019074893539058596208390],
    [113776288004224602528741273815365576859750182734607185312138605973779532939381746198572145,
    260004651680641518592405895187573979389073872500142858261248563483234299343857528892564744,
    142222222222222222222222222222222222222222222222222222222222222222222222222222222222222222,
    4687154523869941228390746544593104461879818371599822479275338137079111262139803091424570,
    -20690316430958284571760137769754882932926095828572088274884729816315165767601300404783682],
    [116875329560228545217766777889365265084544951435074127117436854053928833877990295007074536,
    244908128910495418897463479382295024671688529245424537669564766420879688992313451180201278,
    273190043625801488891728200229353695671379333147399415572581944154334192372191114785552023,
    59231721264047271878566010179979340660815000553103503895706972055429322100760774644998358,
    258884699608759271513288971468703156474398141000263847181590606587313360115087787852745301],
    [121232436926864146801414651118838277082948906188082361807228101967466358807841253266015896,
    228996054578999876611691812361463256969797499208937539357972445525900058682717169891572672,
    309036559064086644833762696130448461074349032623379537947560344024781800739999740394789951,
    -9687563141950739739034827969555140871526022903404846004826994821872192334808632278367217,
    119657167624841617010322878708909548228073888335785384993181916833459566788128114243890531]]
  b := [118463442528094543757132020359958681321630001106207007791413944110858644201521549289996715,
    239314335249683234020645757417819096456147776671570769986363833666919133576256228487781063,
    284444444444444444444444444444444444444444444444444444444444444444444444444444444444444444,
    118463442528094543757132020359958681321630001106207007791413944110858644201521549289996715,
    239314335249683234020645757417819096456147776671570769986363833666919133576256228487781063]

/-- 6 stages. -/
def cert6 : GCert where
  s := 6
  c := [33765242898423986093849222753002695432617131143855087563725191736693249577899901861855630,
    169395306766867743169300202490047326496775717802414964592736647073908251696428449527856798,
    380690406958401545684749139159644032290694684929989324909302417712862532862180078875387786,
    619309593041598454315250860840355967709305315070010675090697582287137467137819921124612214,
    830604693233132256830699797509952673503224282197585035407263352926091748303571550472143202,
    966234757101576013906150777246997304567382868856144912436274808263306750422100098138144370]
  rows := [
    [42831123094792586260074035543183223381705625371010995599658859949736440135585038661981926,
    -14763725997197412475372591060520651442000187800340884063151539406331744761747118783341045,
    9325050706477751191438884508003148588288163222816403301165484643761806291618336992693221,
    -5668858049483511900921256416216506562143513467134365146213393221335648840462576312529450,
    2854433315099335130929285830116021533670995282476544390808980119033754042077814048873024,
    -812780171264762112299135651562540066903951464973606518543200348171357289171592745822047],
    [92673491430378863186512291763320316143348553450233367951736824834520410206879215142251769,
    90190393262034651892458378459429027915380473186686370572434810059285009459315429580240550,
    -20300102293239585952494080524272460106725979641810450223048816009006805703231527302778976,
    10363156240246423730719945806559977872504026533500315503403521785038728325936878583601820,
    -4887192928037671463414203765789644071375927401873867360016687777221259131793904945213271,
    1355561055485061775517870750800108743644571675679228148226994181292168539322358469754905],
    [82247922612843873807771651141128921555439623665512964099798717853280478834685871959254423,
    196032162333245006055759781563801382788760315019545751706035725357898776813824720382514804,
    116978483643172761847467585997387748702913901442302633827906329990978550405099531757777523,
    -20482527745656097629859011865400643821987223507823739630319882723451418814567079658102552,
    7989991899662335797204421480308270793627581949815719712012114742138507683223405045831103,
    -2075625784866334193595289157581647728059513639364004806130587507982362060086370611887515],
    [87737871974451506713743360243948094491470764381385996005448307407455242331256447935851367,
    172390794624406967987712335438549785037133364423557021432857505376431511235407454114649998,
    254439495032001621324794183860176141227815026392429007286132542705408519624766143173657598,
    116978483643172761847467585997387748702913901442302633827906329990978550405099531757777523,
    -15651375809175702270843024644943326957999368646173010561166105239328757895193861222033703,
    3414323576741298712376419945237525207971627076509027099519002046192401436484205364709430],
    [84306685134100110744630200335566338019766679066342763051090725718180711731847718854208947,
    185267979452106975248330960684647699902136873775246608504886307895791278050424764105694372,
    223593811046099099964215226188215519533323776351104952152409138196918372484262184931953227,
    254257069579585109647429252519047957512553782526415717878861475990963906513430590818334022,
    90190393262034651892458378459429027915380473186686370572434810059285009459315429580240550,
    -7011245240793690666364220676953869379937302708211376752419104935047529935709137818287916],
    [86475026360849934632447206737928986830315202206995597717860920247644237560341670069785900,
    177526353208969968653987471088742034297089951090896196754060639999536264876553045111608077,
    239625825335829035595856428410992003967971316351739632802026053203292749650661639828084496,
    224631916579867772503496287486772348817539639661788864354647175338195294518580726522861825,
    195144512521266716260289347979378707272761134173713625208021159524901763680377977943822146,
    42831123094792586260074035543183223381705625371010995599658859949736440135585038661981926]]
  b := [85662246189585172520148071086366446763411250742021991199317719899472880271170077323963853,
    180380786524069303784916756918858055830760946373372741144869620118570018918630859160481101,
    233956967286345523694935171994775497405827802884605267655812659981957100810199063515555046,
    233956967286345523694935171994775497405827802884605267655812659981957100810199063515555046,
    180380786524069303784916756918858055830760946373372741144869620118570018918630859160481101,
    85662246189585172520148071086366446763411250742021991199317719899472880271170077323963853]

/-- 7 stages. -/
def cert7 : GCert where
  s := 7
  c := [25446043828620737736905157976074368799614531164691108225615448043468334822579929597134615,
    129234407200302780068067613359605796462926176429304869940022324016285062663909743103586584,
    297077424311301416546696793961519268326308992950314936806478374102668093386937172335843655,
    500000000000000000000000000000000000000000000000000000000000000000000000000000000000000000,
    702922575688698583453303206038480731673691007049685063193521625897331906613062827664156345,
    870765592799697219931932386640394203537073823570695130059977675983714937336090256896413416,
    974553956171379262263094842023925631200385468835308891774384551956531665177420070402865385]
  rows := [
    [32371241542217423317652858169770504582146850564986665994302159681163808743010577178906355,
    -11451017283183870288164582473145856860226094612724856534024814429822817954312211801154726,
    7633203872423544925846644221635648638701376985458745124282365998747121792718622676419185,
    -5133733563225344981956297582339128267955383092757832402769231904700570696428890739471374,
    3175058773685637636834317301994700307148389385715599001574960440501264298763051738187950,
    -1606819037046105855606101283476434177542933420855585364281672000770436815488745781286998,
    458109523749452982298319621634934577342325354868372406531680258349965454317526325534223],
    [70043541378726076272981453606589676513917794798158243073874048367928486256314201516982489,
    69926347872319166975366942855944895621731266306649691134253508173404702607640669203310236,
    -16590006578847771164469906137332773741845373535232657830168647971748585732348177861298572,
    9349622783443332076311077667929378823676308243500419292846306243468121955482112328748034,
    -5397091931896137854621201772420696217588152618166933938816522799175075699972468516813241,
    2645843866730037379830312955794464299073596178530015497085052656265883269129690829848877,
    -743850190171923617331065816899148836039262944133907289051420653858469992336284397191238],
    [62153935787349864535878929129352964293860034506261433278934097766447245687603675637003767,
    152005522057830992561321708847832614350419040498964139422568140152896850100714507288596064,
    95457512626279736237592443872243783469591270883465683687770862757676386608532427087171165,
    -18375244215451837389204600727175299157915988068206938150602545581861854539307634635978739,
    8712562598475181983783694755749521113594761370241818650135977093140115530117583743584566,
    -3953580158810438120880528566673128246004219036063397379537810487339558710353441939237753,
    1076715615627916738205146650188812502764092795652197297209652401708908709630055154704586],
    [66332928617684700552132262041314275154828336870093483233377294589803454781721245571225940,
    133595769223882288417924053929658866864096445887326525562865308174963503804411003316990568,
    207701880765970782089300497781520413445832117083925921412769366595161026201622218314443979,
    104489795918367346938775510204081632653061224489795918367346938775510204081632653061224490,
    -16786855513411309614115610037032846506649575316994554037227641079808252984557364140101650,
    6256926520756045532809831782230924379366086725972856705641708171845901410870335089629903,
    -1590445533249853916826545701773265990534635740120151244772975227475837295700091213413231],
    [63665767468806929897100569689352196661529608334321134691394666960618708776391099203108123,
    143806275903448772071614414278562919489466751649362779648044826834148963925634780345858225,
    182202462654084290491401192988738045825587780396689548725405748422212657686947270430757763,
    227354836052186531266755621135338564464038437047798774885296423132882262702572940758427719,
    95457512626279736237592443872243783469591270883465683687770862757676386608532427087171165,
    -12152826313192658610587823135942823106956507885664757154061123806087444885433168881975592,
    2588547297084982099426787210188044870433666623711898709670221595880371798417478720808942],
    [65486333274606770252636782156440158000332964074107239277655740016186087478357438755003947,
    137206851877908296570903572756095326944388936434769366771421963690543521946151647576771594,
    196312117184455610329806089516908263156770694385098301314358248314527848917037322691155571,
    199629969053291361801239942740233886482446140736091417441847571307552286207783193793700946,
    207505031831407243639654793881820340681027915302164025205710373487101358949413032035640902,
    69926347872319166975366942855944895621731266306649691134253508173404702607640669203310236,
    -5301058294291229637675737267048667349624093668184911085269729005600868770293047159169780],
    [64284373560685393653007396717906074586951375775104959582072639103977652031703628032278486,
    141459514781684439806339986995366225421005466034154967632788688347579842030770084187907470,
    187739966478873834838350570442492866632034152381215768373966765074851508918301802436154379,
    214113325399960038859507317990502393574077832072349669137463109455720978859694196861920353,
    183281821380135927549338243522851918300481164781472622251259359516605651424346231497923144,
    151303713027822204238898468185035648103688627226024238802531830776632223169593550207775198,
    32371241542217423317652858169770504582146850564986665994302159681163808743010577178906355]]
  b := [64742483084434846635305716339541009164293701129973331988604319362327617486021154357812709,
    139852695744638333950733885711889791243462532613299382268507016346809405215281338406620471,
    190915025252559472475184887744487566939182541766931367375541725515352773217064854174342330,
    208979591836734693877551020408163265306122448979591836734693877551020408163265306122448980,
    190915025252559472475184887744487566939182541766931367375541725515352773217064854174342330,
    139852695744638333950733885711889791243462532613299382268507016346809405215281338406620471,
    64742483084434846635305716339541009164293701129973331988604319362327617486021154357812709]

/-- 8 stages. -/
def cert8 : GCert where
  s := 8
  c := [19855071751231884158219565715263504785882382849273980864180111313787551128290357780280520,
    101666761293186630204223031762084781581414134192017583964914852480391347161763453926424036,
    237233795041835507091130475405376825479017878439803571124571450363772589615719363738019300,
    408282678752175097530261928819908009666621093543513108841405763150397762889228942941965888,
    591717321247824902469738071180091990333378906456486891158594236849602237110771057058034112,
    762766204958164492908869524594623174520982121560196428875428549636227410384280636261980700,
    898333238706813369795776968237915218418585865807982416035085147519608652838236546073575964,
    980144928248768115841780434284736495214117617150726019135819888686212448871709642219719480]
  rows := [
    [25307134072594064788132838577490547528848522762921239264750924516185044690867696215070685,
    -9105943305970075021363652104664350473117272473296864293486235868793937901895178100235388,
    6280831147030473980609420737807597954258358376305131883423226518291388399511086661527382,
    -4483015613054751441913314235301548147590609166011393022915256115476725701662632391301680,
    3078491368326779889853830649117115206609020301678813700709456609033142906698460008236631,
    -1917675254636952340925635119494438564064489383086963501632983042254222455860624900654486,
    972757664059263526724523824088790494697049029233802386038858371679427794659121051313026,
    -277508327116919222898446613780209213758196598469785552707879674876566604027570763675650],
    [54759321767554320283190797385002248268758043645510051810823692578022323952163612238742658,
    55595258613343617636088998606560221107532717512812391181477322323404203642612260213413286,
    -13639796235781669253030662069976092247068025242869062572834181179496940728211120492463551,
    8149708858360550536040427483729163268358221621906200141441829261766360210040304020631399,
    -5215352089147153380243369774637649244931202370908292126348767538749329911953338279846908,
    3139752985463668942345006901156272652894716207562353582102429805549815115997454369816727,
    -1564934910948942375795111404430434546934226501665145671681474962113460603283741747380171,
    442802304342237815626944634681052322803889319669087619934002192008375484398023603510599],
    [48587535998912880943160147347438857456256142013339944264040200948752232234354710843448811,
    120859524997173167441653743003484853778877920613967928060621206073755839755661952761489367,
    78426661469471821834490550496650328315082249750683734422565986268739067985543374240424519,
    -15975103361878431475670113855696513434288668260045899803878303628868292040911977899573525,
    8371732720226163786910322064390614676705720122381634281879912885785731685159518969454790,
    -4643465862104479790126170070244730737880653787856567212119385600405568444005572599946104,
    2225714775284899718315301407893184799576983185882762198178622147769169701049135471405964,
    -618805695250515367603304988539769375311815198549965086716788731755591261131778048684523],
    [51865520970581234565312077964966926995778077299652682521860292159065260610966235347868627,
    106193490148348406878869450082582415887780415384315512979163466898217110064228566604582461,
    170671134274553621284710784603994075903991264708540406703729472786408331163598551724564029,
    90670945844590495741287612319298903048536509973582635131205766891671683680976669331091511,
    -16021041321025013168705217793800827161745613795839054026086041653223550270196157906889244,
    7241206561222269861803063014938809736325382384137791876000408113967168694718059705329832,
    -3197814310360770322482743095420928903564761505272019307908838039628803847630978067129660,
    859236584264852689466901723348634159519819094395152963441235993920562792567996202548333],
    [49755031560923276886798775431632460898177226431447325566060613038449526589167396227593037,
    114388331537048005594660740308541371118630196530896801670863482686437211132855498493956231,
    149612116377721373807178037978361846893839117117229676969131564423510967276368688775519207,
    197362933010206004651280442432398633258818633743004324288497575436566917632149496569072265,
    90670945844590495741287612319298903048536509973582635131205766891671683680976669331091511,
    -13817811335609977615729683610693419273826765207172937858597500248930195192511803243714991,
    4997027078338828393308547130538026327285019641309269383791177748591297220995953822244111,
    -1251252825393104989046400809985831938081031773810203992358443126695171229230842917727258],
    [51233073840438644943868982143520864433008860724392443616218637764125680642867170478825893,
    108964802451402335553862695805227257415488451839742020164776022499039237584175384955420607,
    161496788801048123459107271063545387368045153289224036057251358137883704415092321080795142,
    172970158968954827695664902574207191420367299824783635980531620897557635676793819692728231,
    197316995051059422958245338494294319531361688207211170066289837412211659402865316561756546,
    78426661469471821834490550496650328315082249750683734422565986268739067985543374240424519,
    -9669007770485932169475745790364411563812485588343145697666561426947432470437432334662796,
    2026732146275248633105529807542237601440903512502534265461648083617857147380681586692558],
    [50171465840845891760638732520300042734893156206173390909567846840361713897337368826630771,
    112755452137636177647973108617550876761999661527289928034636119608921867888508262174206743,
    153713569953479974726636094092144383977269783293805115263029542731928320855089294111032312,
    186557243778328144862818594413235455342004222318073562388760301322092697273906676942029929,
    173192182830820440946534797154868642828714798325259070120969704521577007151913034641551622,
    170493119174725312922011763063276748877232524744236531417966153716975076699297868973312589,
    55595258613343617636088998606560221107532717512812391181477322323404203642612260213413286,
    -4145053622366190706925120230021153211060998119667573281321843545652234570428219808601288],
    [50891776472305048799164123768761304271455242124312264082209728707246655985762963193817019,
    110217759562627971745453473389031651720368385996390979976915786275128979490565399375513545,
    158770998193580596009906736112795095194228988884454432346764955579732358426947373381503524,
    178263400320854211592721393989480690890463999645486456561702077174310224455254878653946390,
    185824907302235742924488538873899354244663629113176663285326789898820093063615971053484701,
    150572491791913169688371680255493058675906141125062336961708746019186747571575661819321656,
    120296460532657310293541649317784792688182707498921646656440880515602345187119698527061959,
    25307134072594064788132838577490547528848522762921239264750924516185044690867696215070685]]
  b := [50614268145188129576265677154981095057697045525842478529501849032370089381735392430141370,
    111190517226687235272177997213120442215065435025624782362954644646808407285224520426826571,
    156853322938943643668981100993300656630164499501367468845131972537478135971086748480849038,
    181341891689180991482575224638597806097073019947165270262411533783343367361953338662183021,
    181341891689180991482575224638597806097073019947165270262411533783343367361953338662183021,
    156853322938943643668981100993300656630164499501367468845131972537478135971086748480849038,
    111190517226687235272177997213120442215065435025624782362954644646808407285224520426826571,
    50614268145188129576265677154981095057697045525842478529501849032370089381735392430141370]

/-- 9 stages. -/
def cert9 : GCert where
  s := 9
  c := [15919880246186955082211898548163564975297599754037335224988344075459812801699623469063125,
    81984446336682102850285105965132561727946640937662001947814010180272496559204940553026901,
    193314283649704801345648980329262907607139697529717653563593528859366326754499400708379993,
    337873288298095535480730992678331695714021869631513455586476261578906710232437875403450699,
    500000000000000000000000000000000000000000000000000000000000000000000000000000000000000000,
    806685716350295198654351019670737092392860302470282346436406471140633673245500599291620007,
    918015553663317897149714894034867438272053359062337998052185989819727503440795059446973099,
    984080119753813044917788101451836435024702400245962664775011655924540187198300376530936875,
    662126711701904464519269007321668304285978130368486544413523738421093289767562124596549301]
  rows := [
    [20318597090393602992973039527630912668915430195602687677776919220171671577113015736394639,
    -7397868566148786865424895030863240436156673483913079451985879291966398404669043917371202,
    5222003592100053891855843605647442093581600426067909108171177959528834703560219803466999,
    -3873451291744980550495378873389932313621590015311662473257021656888135589404468796782824,
    2831369450069839863549370123637087056526632113070391561312722092428175337223835620874760,
    1226609788812560748394662844626533757813224229858982598574367929302997861697056945210417,
    -622964091648914481159571486571449879599474497668589619980913821807047949382716946429183,
    177778462744798652780015293222429521047679753056606785825881382707203983153680486537217,
    -1962194188391219170261187455776217493209228966725910961448909738017488717591955462837698],
    [43965527226528404158541264564508696637360276884975090901932914836624868308433809839676798,
    45162040173714351014618007810728202378584455433010121124583976617839322636236567441148744,
    -11335464012335047046592546481431936290405625993292994113637890829438810247029538496889909,
    7034766801734681439036958142269447754080429353526908893248134972318546296696678321332154,
    -4788276131016640294459450686154718181144253047103268058976163637754293696139829792233683,
    -1964405739953508617100118198533502306728619492669269656786446776509982261224570269350590,
    987172103665947150853208009195396464053219473493454866048426218125642680241961727164006,
    -280274237640940717284308546381074582457256680542652985905402472493945029829822173949743,
    3203360151984855762672091350932049854604015006264610977306461251561147871819683956129124],
    [39008653396284333705340626055185025669939743623994156541515266591917138849380438631157243,
    98181511959848158560297201279566067402296878569140427189918685357654026562281473087205585,
    65152674100733865579685717354658212442960051109324987984999250529902703917222811161911523,
    -13770833986608572198870637724996562823610287094104712549466156991156954954018885647895077,
    7664175624642138642252070925047036308481436138551744414676011765910989572486998336504243,
    2770828892759019816067198814433059383401298918508919463444515973559499606802537926450942,
    -1361671983073003880772942362269893471117752653048859162510569221585123123783216617712762,
    382532112918055676721205511905613510958378277862997546041526533029057100442076553029755,
    -4713586467799194555071459524265650816170049360512007865025001679865010776314832722271459],
    [41645087027322808568459095799521601534472935309317838718550484384477333114288975131447239,
    86255472772503776607134117064743113078502619044946137272421706115051935419738101393175010,
    141795216041145464700711349265044104245892219781713486238463237097928276123661437086758372,
    78086769260000710017157601646110916399688715315476161388502791399785974331004829142530480,
    -14618957875912557428631373858981526457802735054362677813231752917244077001793743414808884,
    -3932839915038731281873983056217362342833519376032577038095260095819234276178490392986022,
    1852686200822523948497835253338880426864496217253009198584932225488289042811831529293589,
    -510573474928686025187960892672730787726220892019138938072613355841215176175727940119429,
    7300428262180226374464311457444699616963359285221216559352736725079428655080662868160344],
    [39940372869834743320397429937842667077140850012536885203922547110768959922403369851438212,
    92943372272717086974769562013078784525497610691564884528633906047563196025622453936896266,
    124257110410775669930284959188188129770252013674399105441054038787425426075446322599607445,
    170000445255253483576298037267459166949972648178836953196072034168351045557195555477453902,
    82559838750314940791131267321743512219702695893172083648274124464600655076845553036029227,
    6048237790692061229086475521128295115668088544250870528944462272379981758999299724215602,
    -2619291925288384945533546391622379768328699825544642279465952811884550753149319054598777,
    696821310952462665548649117419158260690010378668490151631291329574383231822661621351065,
    -13826906735252063541982833975237334150595217547884630419066451368779096895185897192392941],
    [40254662067869150309224873543356211826872482113342377809512311907314286053783954919759522,
    91685752330501705910008957983726298228286663519069101411678522457263768396256351500010251,
    127534519308708711343304235894883365502518803300141056506553985086245908227643084397372105,
    160887124987800614589386662816487483615547479991464330642030584479436959438324491007332420,
    157455501875987742940010463718439988130923955647792422881872237163290320581204107735554210,
    65152674100733865579685717354658212442960051109324987984999250529902703917222811161911523,
    -7857431612419456531061185658109662645127967703120184940750732121975381289808338204908097,
    1628540784502872280605453000076799667891116767211218814038571848426204304845592841632034,
    169944372506609992233185841017218395622987717725057035326471739790728903616028543932956038],
    [40917468418428146703230387601642899920288117071748028341459240912837288184055853646739021,
    89336908243762754878382807612261008293115691392526787383119527017553002592231173155133483,
    132269753941421239776471552907849927192648721711319245626784947836315390095670192593173637,
    152970178368016564271643111941289782944773415624687711799699121548010800790189974328931836,
    169907953631646521876721985329641742620549644833447435355524412566955603849830935864292136,
    141640812213802778205963981190748361176325728211942970083636391889244218081475160820712956,
    45162040173714351014618007810728202378584455433010121124583976617839322636236567441148744,
    -3328333045741198172595185509246871299529416493769715546379076396281525154207778366887521,
    149138771718266738595278245149952385045297001277425413883757447827253402365312979963728807],
    [40459415718042407333166063762039395816783180638148768569727957057636139171072350986252060,
    90947044439077616510395587108027854636768385363688831869148867057485693221855851828726671,
    129078738412655170410976771864689891128106877988790993371424133130502409972748565378612630,
    158135732708392639204576390747998050292586659597678233738454492537589437379601613747898659,
    162288308050560041718713164519849937382878759673273775735235526836773134816467270451183693,
    125083344609367677267515591103668982792338501792582066861827323100276573130885402520356047,
    97721948913577488894660910652319645193325584349933321701153832527645043677142178799668690,
    20318597090393602992973039527630912668915430195602687677776919220171671577113015736394639,
    160046989811746400584810582165611765112999020646263985250262604456460084251414127081843785],
    [41147767655715892011134039947934556125557081283224514293626451796184558330401759412908706,
    88471394146606178080738180368117524330304414648767233050583021010190356229661303353003899,
    134238188116506462441245417765533787228753621594682553008093761155624642110624112716809069,
    148873110257821193659850891834777133182414071345731106217652846074492520006928995416900617,
    179738635376542439010893908502468550897208126840706845109780001846445387155484849486867337,
    -11489867839677733541339914555727679359972117563063510268464736038122868289215814762935325,
    4068607574924925422101898556713291678666291821074104976746247120626709852735033489122478,
    -1007892846535602582513016744259776196642074918112463362996645944133989960062943658657961,
    78086769260000710017157601646110916399688715315476161388502791399785974331004829142530480]]
  b := [40637194180787205985946079055261825337830860391205375355553838440343343154226031472789277,
    90324080347428702029236015621456404757168910866020242249167953235678645272473134882297489,
    130305348201467731159371434709316424885920102218649975969998501059805407834445622323823047,
    156173538520001420034315203292221832799377430630952322777005582799571948662009658285060961,
    165119677500629881582262534643487024439405391786344167296548248929201310153691106072058453,
    130305348201467731159371434709316424885920102218649975969998501059805407834445622323823047,
    90324080347428702029236015621456404757168910866020242249167953235678645272473134882297489,
    40637194180787205985946079055261825337830860391205375355553838440343343154226031472789277,
    156173538520001420034315203292221832799377430630952322777005582799571948662009658285060961]

/-- 10 stages. -/
def cert10 : GCert where
  s := 10
  c := [13046735741414139961017993957773973285865026653808940384393966651702398382681920187138218,
    67468316655507744633951655788253475736228492517334773739020134077312622430972219321604636,
    160295215850487796882836317442563212115352644082595266167591405523720712302462537692460713,
    283302302935376404600367028417107918899964081171876751748649243428116505461148249387448621,
    425562830509184394557586999435140007691217570289654152146005373242048191322165739314411185,
    574437169490815605442413000564859992308782429710345847853994626757951808677834260685588815,
    716697697064623595399632971582892081100035918828123248251350756571883494538851750612551379,
    839704784149512203117163682557436787884647355917404733832408594476279287697537462307539287,
    932531683344492255366048344211746524263771507482665226260979865922687377569027780678395364,
    986953264258585860038982006042226026714134973346191059615606033348297601617318079812861782]
  rows := [
    [16667836077172034398392202473332948214466208580039536282173720403353016021021775444196377,
    -6120680292335029870253089879066189937575158067529977057875904061500128341306708754104875,
    4392003730288522216986145538877942315351235202335322925661610792866170344340210339456831,
    -3345350508825494708708881761330719304378506719196448996865318982621710581642961918086676,
    2547568970278763549049622257381702854682991111645335893405055872973869092609093411957160,
    -1882620386935256610852077910568272257627101006183326434452948019026417021691504022295419,
    1310814627703083918428327884197969497528259617381237440830319993462715125714662620750951,
    -820986353138291127367521983463229040072813537657408512595999756411844416158110425290092,
    417243835667835720457601113273652230333724697457066796173058326955360379068074005424145,
    -119093958462027525114333774861831286843813224482397952059627918348632219272610514870186],
    [36066152578194330450696786861596726739811722815233287620449111776764124905486152735737234,
    37362837287645148286444084914424333100639159917356841958869317188309663681657502736486816,
    -9531373591889659452607571839136812031751022342943739175365842425854290364090239811179214,
    6072284461743922184894289980196163005429271003267313186555007665341914728056577747634599,
    -4304045812959392009075632709111486564017686652590172874203114308697441623779676655276041,
    3068518610867535586953847164401830161615823781283972468204585992693065395118867341323363,
    -2094113957450322848315747892582039036627360894621416339540683778936143865063233806543711,
    1296249655498199633314444994182012206874086665245331049938232725742924964853451003456285,
    -654328115142468560893715735581344379410611837156472739277580241801467352423427755224511,
    186135539000451362540870049864092533665110062259828583391099483750271961156245785189816],
    [31999117977514610193989845382253405102564339030866433495815165495373305070791106273791521,
    81227570111860772851546067918131869802669368246101373171045213841705289041083400114348767,
    54771590628995510998883733557040798114692967630669272470239135908799977663237820310670998,
    -11877612891529426482428201092247613336176317004623371890255693621301565410732088660267645,
    6878146397707144783858006066310688585185020176093827680756394960018726497600760299481094,
    -4502743296861852416071469705647578671593967182673167718945945798095221466053062607288186,
    2940873331413949526349630144598775990927616767073708226602547591831944192649384587880156,
    -1776133746574100744503126513939215154894215848639152194758183531902761680718048612278159,
    884246091931209019529692891224077701823987568452761584029061612218627223054033631345991,
    -249838753970020848317861205161996019846155300726418656936290934927608828450767645223823],
    [34163992179108709031938887963118635907071144119349728907396571580903823993774787735310660,
    71355369074635557884829663881334678631330693002764593248670920225510681393528228030926261,
    119207290548758140477788951389364429010439496012444436125413769579493861035998045194154497,
    67316679827499088772806730392367338214939984615220948950140819060538358079794819191056659,
    -13096519547196899758787624297692382039917565971951249164060114438630282293045556472913307,
    6948865983835390310627315002300797860630039354352557176784037261096720195270597988453247,
    -4148453527231695087791334172556115237656385476968084582883438783103559256607703457775126,
    2392814241770356540405957672594655113315964956189109444897547448761763640876516380744657,
    -1162297951332426431619189816845380117657098271078518400952531912971111505273377152632997,
    324562105530182860167670403121261557467808831553230043241663406516250176831891950124069],
    [32760931291284437313506155589416202104258806478706863469807069127374810783822951464107074,
    76902299703648435943661360876834911251384749101423951211591048376112604316187737615945963,
    104444079563094207185198585546973903938255539576657415631173649850947204881367436801169194,
    146566245550415954620379616976850334514621215136339303953623623189154127271721721659871614,
    73881056178688217543473248662834582355261679256713400338577007438998984554288082317589149,
    -13112209169585375239041976931555360104600104166636772350373611617612071052481402187124050,
    6331455054820683800267096714424896039622058172658280130622977729071223847171450215868577,
    -3338100797675275601948001634583979502500579785952142180224712171537967068915391576987454,
    1551799168851436342521351785521006264325795090953932213905808999219740291303290825923797,
    -424726034358327350430438151576489169411588571210080272697487679680466502300137821952679],
    [33760398188702396147214843098242385598344005731289152837044928486386498544343688710345434,
    73173875406438860230366818043327659936952524743759751703832825377399587072011714647049836,
    112881282055666297599715468748665575731886515047290687120702983989137922395391032198329450,
    128301904600177493745346364070309780390257911057783617769658660392005492312418188166244741,
    160874321526961810325988474257224524815123462680063573027527626495610040161057566822302348,
    73881056178688217543473248662834582355261679256713400338577007438998984554288082317589149,
    -11932885895417777074766156192115658084741245905897406053341985068077411112132083277758296,
    5099101694896814812568881567107692291130395684681129309304621966652750445108203820172802,
    -2176625128358139370773191047986245050106429266710267293852413999493276952872732142972331,
    574740863059631483278249357249694324673610681372209094540371679331221258220599424285681],
    [33011110048813885936616734543544634871464608328525842521105777400189781865211658938268685,
    75887972526622723004507359645694046318935418105792202318691166289590438868588382625606629,
    107150367016220665457361509441486941116069970305149435495580724368838191685599124240597339,
    138781813182229872633404794957290791667536354707409982483165076904180275416197341839888444,
    140813246373541044776319182323368366849893319159074243500369977616901248913305566646725051,
    160858631904573334845734121623361546750440924485378049841214129316628251401621721108091605,
    67316679827499088772806730392367338214939984615220948950140819060538358079794819191056659,
    -9664109290767118480021484275282832781053560751105891184935497761893905709522404572812501,
    3370305500654738688058505947513987569947626831949090669067714151108645969786777442047372,
    -828320024764640235154483016452739478138726959270656343049130774197791951731236846917905],
    [33585510908314089645102266151827892448778572460805491221283731741633640870494318533616578,
    73841428483359087553358476937624588499454332266260922333709572764400700140260971841627642,
    111319315004565122742270593628020811384280151109977697135236455349502717007193689233620156,
    131692486323584228019263830640135900438952352463368189673679090529244771966940253794233162,
    152264855654238287503017967031316743382117325696099968396099960676093190574629227242466484,
    140883965959669290303088491259358476125338338337332972996397619917979242610975404335697204,
    146510972546527604028041661876982289766056286235065269790537331742378281570321727042380964,
    54771590628995510998883733557040798114692967630669272470239135908799977663237820310670998,
    -6501895536570476278657898089283203601391048411387689253306579465085961677768394641375135,
    1336554176829458602794559564412491326368078129212639068532275311332726971252444614601233],
    [33149536615343617434243534896801803895267307097819243980956341322955760080887305103202939,
    75380002690432765133781885564430010580688931671870156657016214618420794715738433228198143,
    108246931602492822364453022119899584022511848596093213890540039091857030361622189617885712,
    136727473612448500393929208677316715466507330125063314239822321900012860024652872188657029,
    144693593746508899499992650161267334548907534732142828208949428885304903713457297293854935,
    152066158170335827096022130034780651274541045166016973551357129186695410732355841290454338,
    128561075193254255360719170804538513424450698227174584713726630455734801431533060634478719,
    119074554849880681450375038953218408261136957604282284115844114243454245690565880432521211,
    37362837287645148286444084914424333100639159917356841958869317188309663681657502736486816,
    -2730480423850261653912381914930830310879305655154215056101670970058092863442601847344479],
    [33454766112806096321898738721527727715776230384561470516407068725054664261316161403262941,
    74308430739622460852430568715575013970944595137256617121565576049663966984246931467549487,
    110364167611129313125134989097544825269458748798995953453074271574011799742633751046632088,
    133322545027295093627185132900536706932351709613060660459451318127614001033874975761362367,
    149644732744311691697798575236237436968150459519610127111606962897024386130267668657473717,
    145214543387097671537896875068287461855840367401781464783748959005024100015967071223221138,
    137978710163823672254322342546065395734258475949638346897146957103698426741232600300199994,
    105151177527702499780781321575203653914034700059003222014816661024733784982135430281885165,
    80846354867625326443141259707914856138853477902243660975614538438119455704621714227078507,
    16667836077172034398392202473332948214466208580039536282173720403353016021021775444196377]]
  b := [33335672154344068796784404946665896428932417160079072564347440806706032042043550888392755,
    74725674575290296572888169828848666201278319834713683917738634376619327363315005472973632,
    109543181257991021997767467114081596229385935261338544940478271817599955326475640621341997,
    134633359654998177545613460784734676429879969230441897900281638121076716159589638382113318,
    147762112357376435086946497325669164710523358513426800677154014877997969108576164635178298,
    147762112357376435086946497325669164710523358513426800677154014877997969108576164635178298,
    134633359654998177545613460784734676429879969230441897900281638121076716159589638382113318,
    109543181257991021997767467114081596229385935261338544940478271817599955326475640621341997,
    74725674575290296572888169828848666201278319834713683917738634376619327363315005472973632,
    33335672154344068796784404946665896428932417160079072564347440806706032042043550888392755]

/-- 11 stages. -/
def cert11 : GCert where
  s := 11
  c := [10885670926971503598030999438571304614288795540107792287099467008168100309555005899840301,
    56468700115952350462421115348036366684162124387342807516294472231194343071313666278854702,
    134923997212975337953291873984423270975178468986934844010810830156493377470740385202288295,
    240451935396594092037137165270695222759886442440035755489538694256652036774463553587200610,
    365228422023827513834234007299569237660189068780473859188037184059971466888152632148089204,
    500000000000000000000000000000000000000000000000000000000000000000000000000000000000000000,
    634771577976172486165765992700430762339810931219526140811962815940028533111847367851910796,
    759548064603405907962862834729304777240113557559964244510461305743347963225536446412799390,
    865076002787024662046708126015576729024821531013065155989189169843506622529259614797711705,
    943531299884047649537578884651963633315837875612657192483705527768805656928686333721145298,
    989114329073028496401969000561428695385711204459892207712900532991831899690444994100159699]
  rows := [
    [13917141779043416620688430110637144682128906424224537087096071418538851820184385970922806,
    -5143255629834905539454826727291840447410257041161729909643219492246391927373444214421950,
    3735603749140850187251314704390648603910661224787170101851852418961953041967835492020431,
    -2900379051383150037818280708503788452272506091072617306524329474413233770305858289292483,
    2272742152649985376696007976758680591018411404691779656615474288661510024271368842496645,
    -1752401162640827427023469570942528021514049268768173192063406273421153466518180827592969,
    1302489117318229271833765765273504287246846804797161752478771402280306273256854465236660,
    -909279657711640651057229985874299567371382357961969006333182518429488063941512370926739,
    570136062283444316355989598062837960804983956908071649425024155365847608090820586431167,
    -289875324978482038437992853765252866207370248136110565554289246218064916978125967297146,
    82748893084583518997291129826197843954550731799672019750700329087963686900862212263879],
    [30114239194824455685029164770345189643174309391212525685090184722845625745414360463109220,
    31395092366226156158673574805985025049403947848850875165983502704478643783117819408671910,
    -8105626979079844115090387618747155702183820528220095701353686304095173193698954711098706,
    5262821273535015071941185716458738298076937335458389720521415485981648980302885925826736,
    -3837436681692427593634138193730318566090360718567378805494165342363500826287372378324764,
    2853546764477498602097880712182393542245245288292181286177552890666379491684434272131128,
    -2077832917146346495291550420450450628160492467662839529969363347957896345249689619209141,
    1432677812876573132777594452343057071354805212528940208581080519206994831560457706244392,
    -891466711988145401994499020386626137680123324860651884361615690349446651058349778331121,
    451184930916069171735273863699947885600824511561202130672333100166617997609421269600900,
    -128498936996653753822983719663433771579148161250340759552766507385550742081346279765853],
    [26717983850266181145122249227049052411930918946341398414758563835381069957361354641448981,
    68254280917154215809424799767196236587768379384715239965606583864556201039687432607144188,
    46572552731933562856524410357913972922821187010050852945376601043468087002196375617332690,
    -10289524815287214542845014485595266343955407550707256480111146495949027071717920532497149,
    6126673247669537328725182547486205718625800798323248725168115816835346538473862081151758,
    -4180537537048640735772831703831632717729163536100320209112191519993467745045086035517711,
    2910667954104577750126305436160838972625596610426709820385016713502595948840486449281453,
    -1955739875090979419182380157931139495965755584083926040800877993789518615061449759490562,
    1198216565073522160463960882403076979994608594089303788349677997096590040282389139313638,
    -600947942995045366467377875974433020265274243761082816036509881882502672218843388167999,
    170372117195620967172569989546358959327578557640675897226996777268003047941784382289008],
    [28526668906240403353990613863609834529718554524783136181745592660486969187507228774543515,
    59956030735604888511063431393439865887827663942457897879649604270473389576589037706233156,
    101365041153570591950231026008481906849130396084148122093072510012375257953712625213814097,
    58298441147997619979630926210793784857949543079239627256829930530483053304720248988509987,
    -11653692586671389204512253152943248173219546576426309473186874523819648669548618814169094,
    6438381297804833308575484046182360845928945556288689325941861892773950430945405801279840,
    -4091648652781545043280976882328384346926098377995138013572313479592661935708812671579656,
    2620618905720863239196279354947522204709001678396945227634861313044526849949092444257976,
    -1562371080067005516524765660699211037665133345751316931344004993383950519583422275685763,
    771530960015176748020373869400951136917940774378593827999782406584518860704918408320725,
    -217065390840345289252973780190159994484824899484491885232255832773368264824149988324172],
    [27352859999379614071645268330980156787255591579457625795119315850840892219058376677484192,
    64623892430251743934324011112697204026840997909497222607727530297613095024585107458797840,
    88802184934389126906270536384484430442410984529558971123577564662686634435787516152552381,
    126937527092484729329395593358848938572027842256126472475088841497655461834762093526667823,
    65701136127561665545172217472627298843191169400786139095013842871378200834886313388104249,
    -12124061580422001153367310142419440933217098588296130858888229690892175985683956631598582,
    6219262574250019089799393691568678227685166131335068332675245268506885573343683075430781,
    -3630633383863241125230936756639183465602898507019329559468157394313961679359573804831659,
    2063240375546843633283184673006168392351340836602652451602985735184025200478380586496021,
    -992886275645834511167361281996532287144421795565467730391710409653200530965282128389967,
    275899729894848114109410456411519054390395027990635455979955370965609961259973847376123],
    [28191721061867195912536975779289288088863023236174509101341966515087665304856043785478277,
    61477189063204497937865251302230456889376366625153105911782957990292781068463887947952592,
    95998610902895761741789003248637956725489433015655885567661228380624905056619369366321241,
    111095774316370167736965659831943248449534262046160277044637219637717697501700441204805725,
    143076752307042779412913905065100758448565439664793130202808162411298474529981016755840433,
    68231271694475157678620882084085547289010492473695936899400102863306326509789713252916716,
    -11674480051919448322569470119846160762183100863220852012780476668542072860208389979631935,
    5501107979625072222296192589644321266364824112318977469022641423248409107740056772214249,
    -2853505439028636028740182532810010879847058995554179676908026293688731052226618131655862,
    1312995669247814379481898309739593209431529072548644420184047418664506497771750869391228,
    -357437503780362671160115558014998724605210387725434927149823678009961664487271843632666],
    [27558383828191985127267449764862770309867417820458438718212187466112093679108798094469488,
    63783071008098146828514510893966582385952317493267218062358715818610488097200920945733787,
    91081865088320282079765636042821777453291033183499053439150216351752148803914370648169359,
    120227515679858481084492789178226753181501984665498584073128018455280068288800071781851633,
    125183009680873312000545041253685919458697172670237209857352440474249516096428943700777717,
    148586604969372316510609074310590535511238083535688004657688435417504829005263383137432014,
    65701136127561665545172217472627298843191169400786139095013842871378200834886313388104249,
    -10340644796489489370133740937261368856128756097647217961428980436689355225321595549647849,
    4342920529477998806778284331343515403231389490542734767175637424249539568605235082112998,
    -1833707697799431616976861500727153928033102211795472275760524888655807458349468641454019,
    481423558707219169731591890294132577002221268991448379072826986236811421310395264361419],
    [28051348948927178530629834001464449358742637747933566059424398669851071905192921930169783,
    62018653772437135569326775742569098961889954923323156503967223002372768705530720409023096,
    94707476543934131229573586376527156883307507365853022822097207080320124523976173510351142,
    113976263390274376720065573066640047511190084480082309286024999747921579759491405532761998,
    135493920907904876133625411827582982033308437179567416203599999222349063605481439447788154,
    130024162091145482048666280121988733732092039391103184472858343833838702588634020704553593,
    143055964841794720294856688098197845859601885377998587663214560266576050339321245590377593,
    58298441147997619979630926210793784857949543079239627256829930530483053304720248988509987,
    -8219935689703466237182205292653961003488022064046416202319307925439083949319873979148718,
    2834153996847423806283718218530184210980231755243852452317401138483897989646601111110665,
    -692385348153570112613753642335545165460741676334062007553449823409265547138456832697904],
    [27663911440891212274204290231727930404930234290808398276965146059809700592426987559556603,
    63391132675447357683814527487944483119073169941462833148003515290839790238454482205511820,
    91946888898793603552584859833424868865647765426012402102403524089839583964110362095351742,
    118552622171086219378444232579518709211864841742563180554460739054755625224501947736510536,
    128491604301018753340218129509093758713756742191145568369642669029253805720932140326927045,
    140643080925998956093014595872002727295750148483492194007912397246606120764624512541351143,
    125275599007453793761619252397768391967756538003249029464859569925921055131298764695056740,
    126886407111282454502106866907182836059854493709186510993771007556915133681158418509517123,
    46572552731933562856524410357913972922821187010050852945376601043468087002196375617332690,
    -5464096184701903492077650155226186488960483687013489633639578455598913473451793789800367,
    1116299707820652096254610994225236952326893902107675759433579001696633683007417300396630],
    [27962782495083486995199843940937723135836961009699414933744909344463254382450118221611464,
    62338999801536243145611875748270102213207071186140548201294672308790669568626217547742921,
    94036572175855271115043319736214571983322497344962357775114817777285620655451101012996500,
    115164204483118666826484257969244512644544280945950314305078780541759111777880040270775582,
    133480105172269677585635985365705048314542831269235117719997049090714298015022316395417640,
    133608996624472816755143883455988701035775739659099692512622652835946273527894992233702304,
    135239708936815758683978573138984916252472699520139656995521851085119902496059999154533263,
    111334061022460224887320666705128831417822148823020864793138445574984457629137612051193238,
    101250732442946969828139208334575101547826194548321801592106888391031347198091705945764085,
    31395092366226156158673574805985025049403947848850875165983502704478643783117819408671910,
    -2279955636737622443652304549070900278916496542763451510898041885767922105045588521263609],
    [27751534665002249722379569091448091520303262116649402154441442507989739953467909729581732,
    63080060057430794355785142465735302965015265945837860897521294655175352483213764784640967,
    92574969401583681396692831117765107884837390063193634241328177931570326396301930648234212,
    117506161953706880610319082407461869283270468516441223519993043579395594673382010347946714,
    130099783137805101818510669179981093399135491996775116437548914340476095396515772310971838,
    138214944551591142784265233739113622599535034216160046990863612000033806486097607333426401,
    129129530102473345713648426968495917095363927396880498533412211454094891645501257933711853,
    119497261347378389997080133130091358168171592249551871820184190535379340379746356266312457,
    89409501714726275525797506011437297241731712795314535788901349667974220962424915742644948,
    67933440362287217856801976339261890546218152738863480241610224901203679493609083031765771,
    13917141779043416620688430110637144682128906424224537087096071418538851820184385970922806]]
  b := [27834283558086833241376860221274289364257812848449074174192142837077703640368771941845611,
    62790184732452312317347149611970050098807895697701750331967005408957287566235638817343821,
    93145105463867125713048820715827945845642374020101705890753202086936174004392751234665379,
    116596882295995239959261852421587569715899086158479254513659861060966106609440497977019974,
    131402272255123331090344434945254597686382338801572278190027685742756401669772626776208499,
    136462543388950315357241764168171094578020984947391873798800205726612653019579426505833432,
    131402272255123331090344434945254597686382338801572278190027685742756401669772626776208499,
    116596882295995239959261852421587569715899086158479254513659861060966106609440497977019974,
    93145105463867125713048820715827945845642374020101705890753202086936174004392751234665379,
    62790184732452312317347149611970050098807895697701750331967005408957287566235638817343821,
    27834283558086833241376860221274289364257812848449074174192142837077703640368771941845611]

/-- 12 stages. -/
def cert12 : GCert where
  s := 12
  c := [9219682876640374654725454925359588519922400093134244768658939096103377840873008887371366,
    47941371814762571660767066940451903731201645393351226722962119659382602135382104756515286,
    115048662902847656481553083393590962007537124990534181167790467875441728445764387991787500,
    206341022856691276351648790529732859815450742975973759244864560166329650312052368782144618,
    316084250500909903123654231678141219371819929332295189344100060247955035241606063060632786,
    562616704255734457736220684731926564991698458152722136606460877374231028120694844371434149,
    683915749499090096876345768321858780628180070667704810655899939752044964758393936939367214,
    793658977143308723648351209470267140184549257024026240755135439833670349687947631217855382,
    884951337097152343518446916606409037992462875009465818832209532124558271554235612008212500,
    952058628185237428339232933059548096268798354606648773277037880340617397864617895243484714,
    990780317123359625345274545074640411480077599906865755231341060903896622159126991112628634,
    437383295744265542263779315268073435008301541847277863393539122625768971879305155628565851]
  rows := [
    [11793834096627956798653990371254265079257268498711772390126336750952430288009677667706477,
    -4379902157679316509401886929182759932946975023391268711882601112337751037300554830357272,
    3210569641256542620044692326237113628148432857284344842945528023076699685546812309538480,
    -2528680762915275593254830471083114809614063504038919323282624162269890184399190263669920,
    2023245198948568455717606724366394996819267566165914309862854002133611183818995824632514,
    1247744751926595823119090761848891730455533011854727815328450330891061777952627365553237,
    -930499836629974148333740147760257764782273811768884968779069040261226048636624874202862,
    650624788775465133900270947845369231248250038567705512414236380895920027160892961163859,
    -408237882558168112866492596697974287335385914574609956070145081084237388051156682780641,
    207615108480287514624040502392410963008081440386740376794589475991288102897450138023968,
    -59271048705650690553812996300473214883474233866944989116200108193492805386418005540541,
    -1607359020886656636923473567560277099452260832196332529682416363691035760739502722695933],
    [25519823232624463944183650971783377267770884584297831529249601513996025157758074565362764,
    26734831498829607740063679548499056053642543367581220001281510525704748406874394135134330,
    -6965703662555935280842338708963112204048751589286594652470469164845067983098139086095091,
    4587377223464344007030314809337511825195416830512586285404475462926920126123296599758589,
    -3414878313257263152165808333669907346799635040819812605429727418113919071702225807514087,
    -1988736041474001843830343362999823464034899641024345786128798795028097003265524999835723,
    1464259365257973320561194456946724820325844037685883047367402431750944805733048864077631,
    -1015529618890712853539321741171251456271957710837524743574306601905242621654635053277760,
    633880729666708085426064346671314545984343672868184335844474088633746127926735495963803,
    -321341337251878490974152992793925156227541627966990202519382961366440016566904962016153,
    91587566036356740498811384949316366210722478279135583472274279262352284597074514441893,
    2615801172312909444355316561862622479454676032061653930465066298366631922656910490515089],
    [22641508246454697869510514620353548388130676868683351180887909216087632752091042562866707,
    58123057754683715715734009813783403928269932997440863706920360353917062023578599724383495,
    40019582135836556583663132385839767968002932622716044477474886039488556293322787670414138,
    -8966328046013751899004121741477137142996306233003963571861980070306690240210629299388620,
    5448804898165755715436550141145275120575672797779877180758573151397397508856500695247751,
    2781569165618748124074262254638216713826255255867732449244972140060360779129602244248093,
    -1994357101927943231602705519312180043849022065387079258837938392178728317361087245438939,
    1360626250765532720303869452280624538831736721137402704962276513579370199224412671183159,
    -840553839984532063258567090571879101878124322641879802738365442981019526412950320520175,
    423460056141347174662230642939508804743830311025715007176792332081096810790584082520519,
    -120308349110379280703786321047807113215555035662399104018564109830371368583564589474083,
    -3828398267782090947262305244980380052904904927421483802178453855872938468660910204254545],
    [24174826122697199122315908668720825557295641549280620172503272584468233532193829307679085,
    51055048429388676375666287178082100402163963221961214047557156069425909350209197244533348,
    87103853872401591554692200617607084360277058027010145638865184332676180695432439004918795,
    50791856680766480437266113952449594126629536818647536599648641449411408127618210948786099,
    -10357747021696814361694205830207288136671239470421125753075828303976044059967363505094616,
    -3902043706207933435085782002253541338526403253945298225830616370267857470694303926137864,
    2663886990698179291306187107497754808288281343776127759061854773892654393600169467783129,
    -1765933660813741145071121957571163395788469350793333376097775775982664650051957748382912,
    1072055592315174932015148341450653277480238632781526919473635841290448106225697490083045,
    -534534766345622524447744620771830372002318768394583979184246423286130529997673956442908,
    151074627300977163206610358729114440250478337433445430484837816949350415686353188235020,
    5888679696187108941479188715999556086053975888637484011458444171728162401797771266184398],
    [23178887363393649234218344977082390981570877643218040913244674684886684189388310293121869,
    55033673524889811875826365271924943608883264312302224154901666458958583109871751706234706,
    76303560583484588750962899089162635197021086400377090884371751931610782758347761814578103,
    110596236160954295848669502387032959207604086433633813218017614128060186663239028303726274,
    58373134134588702190212474731219514064852493049938718682630874455373000019852918820169757,
    5916908829659310977807774099555118268252026948760651584519593093133069214097941516354567,
    -3675974985192673016268591469211636134428943941239048502832691064136645045048494706696708,
    2317911625806068857936965669692717856514615122453742574084712152596949130146073800186484,
    -1367295743702432079754758960640022777982576369384464946676047255116186836518594803869452,
    670629185517022286304630351349835232826712077655260677765934583707385199125433927790681,
    -188000196714650100120473944846696023216874333949980156360022228961633394167563555726820,
    -11075419981773791702140900524180540110076838011470859739568000692157139766728504055236674],
    [23351411013466887156257040958613712153223028543966947055993424256510165787615202462648362,
    54323271721629831648757849383570067098405503709675306033856604673277831950855188423799105,
    78251990992912100078208853051167576843509850126605776293638180532029150668232115668907244,
    104765642234753235587278744603024865026014587056356982898733029322334570839684895015816036,
    111201133079663467133798800192759022930520965843227441248755299614778657235737079574060939,
    62286761453350696250140609010737802707615225642404707848837750779069856864322010757789200,
    -10379524655125681894566836226359341843595604814302245460520343081022186459909989395496964,
    4801934924673874054212639838634731116752289722014379946881413195052975380689338566432442,
    -2459766655887964035601608745051784345525384067881761701408541979731532457911993841703181,
    1122758704168661869706503535855039702212179223196205886764027181342941475794684144586875,
    -304349193692679899622505931686132680607034517100830026407839352888688254112843601065038,
    135655440635822029787650595060661006283172851684559226581337872233477285089699156595659131],
    [23775668389970563697428454687355226181731411331373524936612695730866493970186918891139773,
    52799033812142193193822728745648276874458374657507179324797086467702111614623354342477978,
    81406460015375545247081023732319558713988441614816553901625819334093299423164170144697728,
    99265801735726892016595262235206470396744458514841330625212570746225867125090348097385714,
    120422243254370077396693540931650664264133930041116485868094439974882645084754332347036221,
    135648942888475184202422118545656145525307289296280275437243502250296853495372525570815075,
    58373134134588702190212474731219514064852493049938718682630874455373000019852918820169757,
    -9012522799421334974137274482133770954345012796338740018720331229237370408002606406154077,
    3735603688188524416363365682516900738984778845054998070578020147366329828297813526250173,
    -1564010527230596395699006174926831501598177577139784152338645407549086296122963435966047,
    408780829862264363089635765426139176943659354205503867007998817018176386631045042291085,
    118656614077042081522473443921920487146978424336048764113155908465006644514546079999223833],
    [23436593565954936434101370383779415718264058659990099349767835684955510160333002147177933,
    54004197764004838004575103717769942479287405503557023981747267474695627343746462226711567,
    78967108679357938235311116430228882658525626612650562035476136237686664480419877850745232,
    103349647022346702019603349862470351649047542988088406575395058674805480905288379645955110,
    114082381278479225089118762354941273321416704756101309606199894136853345646105668172556384,
    118684843210514283558802029305476049329176475396171931686217057386411551326846250249394002,
    127104015290874218742119155292646316266376225570298563118337577214722044099673201145434130,
    50791856680766480437266113952449594126629536818647536599648641449411408127618210948786099,
    -7064689600728478387365935845927548424271192781578056683915412253699068108786863664090519,
    2414614568270539104461071918916011705121123513201225955005864981983587463539591025735311,
    -587157929441285525007927926212295398781104551857075392250599082563372956174473972266131,
    128475566612909325935367000023729146753756854538754713923506117928407571199338325441716265],
    [23707976542366292878011767063556337271730092033085943884271237611735231944602919924887037,
    53046202941517868305465128454058603302541256424136724995386228719328400002958204187748140,
    80879718111657645230584831862251415037883989568073968757688137521958132113058525661348451,
    100223087110767428154228358452618563714427336916157670494335006385243446056012009226389039,
    118740625371105347612027654981751208173554008165264516624099687302924728357066924885778452,
    128401921174483483447543523266455985468135356212230899499853955414012652197304931719832945,
    111297463371011648664988399321293753009129313302097560184503175759348602530849336945091762,
    110550041407546712773536349646376325396255379870299036771159262969129506495447051196960818,
    40019582135836556583663132385839767968002932622716044477474886039488556293322787670414138,
    -4653394757024500235606650716785291820984846262278423704357339302507565209829811454114836,
    946159946801215727797466122154981770383860128740193599364764285817227823928312772546246,
    121791953741082644376206955766837388701404196028941683248430529418079352949514419271330307],
    [23496080627219556856809169357559213792303814519144409196780399222642508291422280820971060,
    53791004334911093971101512089792037263512628363129430205082404012775936830315693232284812,
    79405283542006405081900200425008221390021521572563904619105297990343366458718839844864473,
    102599242980423673728071549646070439709531031348132597942871589500728058876891056950849958,
    115282008903919431059863755005492303309379142062191554317894346478995055233972788776261882,
    121957721734388483055925901459612982935775775252747761767210435259773081805987111025063311,
    120161146582434667532590757796108935476504621140697249970691476328859919111408063447853601,
    96996336138068616867501913095561676428063656806782486913892807435895896129113125297813608,
    87004867934229048448168603480642648140054616834718683607420241243822180569743714426923368,
    26734831498829607740063679548499056053642543367581220001281510525704748406874394135134330,
    -1932155039368550346875670229274847109256347586874286748996928012091164581738719229949811,
    126562258948175394344111561384475428879265350925833761483804300353167810731909546515414123],
    [23646939241961564287861793738809003373398011231290489769368873610098353381405773340953494,
    53262047889178927965503318594605701144277005294775699625768431575418208710851338132244691,
    80447402154231281280192757368377510223341251160006698911019917160061349974696732023608917,
    100933088572757495740631956957053819022010823598727367686883046517926896228075528936408338,
    117676768105807378528758689610199285894487259911646322334040817951007226088342462514542375,
    126180881927588049137204691589035882514682712117005748227357917921830749489383524238274334,
    114723023070228835924707342738072633132885718533711523055398894908612388855886841815707000,
    104112394124448236467787058375982303062873137141333992522579907061092706439635612161242117,
    76828594630416570547281572445442422307857432388147744112004244055900412901098763031289797,
    57849565155338531989529246026180872040232061758553708714445622163747247851049343100625931,
    11793834096627956798653990371254265079257268498711772390126336750952430288009677667706477,
    123325778154774796677162127259626713684774918272954687882347051227248651950691394150025163],
    [23892017386948593496930486674194662839121571514524374806660512854793548830132198936477992,
    52346904293490553610420855561143072405072907511966234115798993870066555337954104125681784,
    82498930927561077202927873516731320281531249313313850656358314058708645044557569182531457,
    96781778436859086820319588066264457136506783915280693252415869703769840874547083331139756,
    127125792924303086274991785688798369973300590914179682825782091991768186499615827035836478,
    -11081917729120637287369377039185400867942400399749810883662370675337571361055135080080730,
    5545135189513937246626149269680005199184020256649996116506449295967342803968758066278574,
    -3181928873220274712746516698125676772755513419061909699435746423511754584448473118243839,
    1787173278761013089117411720511959092496015118826312661311591546947961918413459671921033,
    -853608723970616168630490286571954991120416974512866031293583621868335137106400153530446,
    236257179789026441050939783894818005291508453456597724259249245394694788404152872764591,
    62286761453350696250140609010737802707615225642404707848837750779069856864322010757789200]]
  b := [23587668193255913597307980742508530158514536997423544780252673501904860576019355335412954,
    53469662997659215480127359096998112107285086735162440002563021051409496813748788270268659,
    80039164271673113167326264771679535936005865245432088954949772078977112586645575340828276,
    101583713361532960874532227904899188253259073637295073199297282898822816255236421897572198,
    116746268269177404380424949462439028129704986099877437365261748910746000039705837640339513,
    124573522906701392500281218021475605415230451284809415697675501558139713728644021515578400,
    116746268269177404380424949462439028129704986099877437365261748910746000039705837640339513,
    101583713361532960874532227904899188253259073637295073199297282898822816255236421897572198,
    80039164271673113167326264771679535936005865245432088954949772078977112586645575340828276,
    53469662997659215480127359096998112107285086735162440002563021051409496813748788270268659,
    23587668193255913597307980742508530158514536997423544780252673501904860576019355335412954,
    124573522906701392500281218021475605415230451284809415697675501558139713728644021515578400]

/-- 13 stages. -/
def cert13 : GCert where
  s := 13
  c := [7908472640705925263585275596445194467504719037062545652996339785702381062186579069715356,
    41200800388511017396726081749640243804762604944158352052357327170170395705195042858257305,
    99210954633345043602896755208570054847192137604749985051307643070388941886679938984985063,
    178825330279829889678007696502242174964151300869211571305428796040678223427503212542805850,
    275753624481776573561043573936180066099039166279121060520858526270877953966891428177480896,
    384770842022432602967235939451005582394228812058234418265369251081418958155709024593598528,
    500000000000000000000000000000000000000000000000000000000000000000000000000000000000000000,
    615229157977567397032764060548994417605771187941765581734630748918581041844290975406401472,
    724246375518223426438956426063819933900960833720878939479141473729122046033108571822519104,
    821174669720170110321992303497757825035848699130788428694571203959321776572496787457194150,
    900789045366654956397103244791429945152807862395250014948692356929611058113320061015014937,
    958799199611488982603273918250359756195237395055841647947642672829829604294804957141742695,
    992091527359294074736414724403554805532495280962937454347003660214297618937813420930284644]
  rows := [
    [10121001191328969880005398050246515010496636436247217033761651876248615128198177623605203,
    -3773071585325731176396539564786961926699869598444677815197603336881187177033831477020320,
    2785615756062805405063917697150114009557553542740535931035519471770472719125703143902670,
    -2218270384046127274709093690064277291120521038372042050834331295370697991704473333767725,
    1803064691152919247676480649800456818919717298703439108109377307213112423938535234430546,
    -1464286183975972063732191953987178086555801283392810686706638003362617003358815537447555,
    1172194345233766127895334329407614306939440976478686615358506941765809172278451233950504,
    -913582925476946914279833786076515647126675186307349804400288040246864476371800523224483,
    682707775014527070994806526617236473679173526325599707093342242922809249830020488338037,
    -477846825328057044954904151545177998588049474821371668976114327651021998296100225622849,
    299962625259445461030372797434856757800253774346882242967607238734240771488100601200653,
    -152576299212045336495614490534016785533492759206637744084214312008055984945537206952020,
    43560460018371881487143182782528825736352822765074784869524022567766229038149048322695],
    [21900128317529511652225824379218073053023646396298130093250428194761634834314256698413478,
    23030374959432111978605443988449280230920999965559209772097886834898432431908231572974454,
    -6043319825448234459482053597391586193702240532480419720487774900543920737549654067103922,
    4023676755673410248676161134094587848095118084079366416994574116449462501754092670002017,
    -3042494726226345487103708464968578977394553065284853891783152027088997841634309837264904,
    2382034987767637450774748121625959742102704734392632828206304008681100122272937709431376,
    -1867246400811313992491098641139495779190408241507720677541074501263240111970368237793385,
    1436474648283859267142903216926374414584904679655931190982969136878232176657244133633255,
    -1064422446011306992908882628702215663451500845434440241106650972408858421215260684572425,
    740852231417186149520785772376544081782967199580492232884276434412493499255861542451403,
    -463345539787940887382989363911042813819410609213099661821310985679450751932798260007829,
    235139088196600369947814289646073318774114689172415717938979299429661048918023994913997,
    -67051661504157900798866456583729456963737510659292007258127468356153045583214376820210],
    [19429947719646208013898626572584716692044721646236325405710715728686310488408854500119182,
    50069575543263592342623513120913683856177406255605126697907495309575272478879897459137555,
    34718377554946809615900444217217866905465679565824556911588754126443130383722383931295386,
    -7863032067308685706347541098207513231606380079401975560338618146846746969077886073902398,
    4852746158553562344601377238341305282051492604004239256641613015384217003643020515238122,
    -3484003336607684475874933827161061566400093399055960652464138344952246637861552477160587,
    2609062429679834287050865025456886345515784437556642596137373801420524148754156798800523,
    -1953720768410971637276736919247087683371122550183678596554777282776945554005193173487095,
    1423295087533456274043750865795835383971170433558372543163888079963748676187266899653266,
    -979733532987650877168571875648996127892594486488664269153115796708148123493348366991385,
    608355059029741647181307412082680915737086486081342947787417239718933619419933260296167,
    -307359452503456643979932083820092164335048082255793860569407537342411606979752119557780,
    87444238510288418244586560261830239834034773269451631450442877823303979082157831544108],
    [20746108444520132986466281143427190961572096004893189473162569675125066327728842289090547,
    43980056680602746238610726215519169435674057444413680853560595590190887377203177386944654,
    75566373412184083483861136279000698676692200851228014533999759765144662661178058573718002,
    44536495190486434570011672999024498878203162665254125746698610072286267374687180873679238,
    -9220916842601834711579230388035081963124395194467864099918297567291318942298824223252529,
    5354650885687748358178363410515238231502412961665211427222129101134740742880485191967090,
    -3655226799851316632241194576472317528238743229626710985557997749014423807440139690194010,
    2604429002348943755243010826505191182567013952444062053688866050084961647783730007789073,
    -1842009894761704927392863621650693479714537076972966156296796939712259647000501446709763,
    1244608122107674162355813907978456980613707581187331665458324322958446162912514485701827,
    -763750235756611259863351602996257219571999005814593711079725415381151581236038244935440,
    383103892798337037853784379416009442153330002048832969413300534318132003560764863349414,
    -108591577934743383496452469989928634177006087040742464922541399165786892456037524342254],
    [19890752898251060546517967208193019736069334816305384697066723007756493553894605979701709,
    47409438726828386754320329658288440334692721363083550792121417413489889343689461024777942,
    66193897297749457289497091191817824616794759418330680696720889886917424945207159219913571,
    96977429397685786696595863202281460158601364695803205140886285650772825788968505054862737,
    51954011884222125578130804826513190846645652299875887304777779979134635891271108065148882,
    -10063307033250376007713621850662877608374915307153554682500600068168425296422728031181580,
    5534424914749518585062635436033694177993397658432039469601260882072657928013240224210852,
    -3585220082857202774109845315379706650394718417949766477152989706151210078043053858029398,
    2408946275359569017662245773236853339524791186953408363453325776176591817261561640473759,
    -1579024638206943695849864170589355309353626827045504474744879655457846689905356069485239,
    951119931434866800772660663683767431664945334074517221716995162343771385265570533322299,
    -471841291130799781952598265558730971481599717126114631766148945955652900743555017241071,
    132996200941124552109905578322485996657059775537327100678466887946798278434909411006433],
    [20503975759472767006068154599843293841741089750254157506110293264600973744416201897302715,
    45091006451920914165441221852493626774902453208679834264946939278107608500211029704202079,
    71574942192159462539960800627720344823295051803254579958967245130788461731723826448497327,
    84857433870937933433666207367447500230580978257326235472591272947361511564396732320392967,
    113150057093106559270427818381430985982207325738945990353792482216038977877336046758024225,
    56570795065724309603022546509944154608689434403889254966242137192893915780124992760456580,
    -10351456092249522975250480806575672557906016117547893178854207886812243365362922258806508,
    5394003899694171611742790627389115798342146668799823228356273734711421113443441405323805,
    -3292627699078813801060914660350356042399084182645850946881228381602333479765985760515968,
    2050389067403360880577571394978440360341883947878174849308936654620427125397454027301171,
    -1199028848645799803200980259552551728093731994099730938725387521284206524568021151653232,
    584799095209111448818836774843046551799346268191576931782778946059988287224533427606114,
    -163447833221850412977632958606346249272065694691734202268284494065544198868304984532747],
    [20037939581102676277304969844283836210579662371672655101158396446779731850678077254637674,
    46800429085137372298501266011602615532125910793375901172301473856154065341003862661792540,
    67878693454495903597738270587955625495438235648605501208866125539866332043767762969126661,
    91873074724079340319628805425103919737817889335329208029812264225865459408920152312068250,
    98962271761227679498350971781439812417488469032559656334316286428850892772564922483745349,
    123214025135056194245784393996810252932851087421337088102337292457813821856163532832296658,
    58137888307718477548647378817208987039156869326699496529666359836190006020175850345680516,
    -10072435003607575039739300976921943715472218613558578169853018072025990295913547311383498,
    4945752007216571657910637871586569275802835567192118275239273529418379009977293646552415,
    -2800084343106471179605459427054921981411564004820956536415044081292924659545790564709774,
    1558061655397715634062617846480108315493123483043612614311382713019928723677004893464110,
    -739679166273148341290378034704055070283910862257481628105700186357200477187399515843632,
    204062801555263482705826256209193810413610500821778966364907305717498405718277992572732],
    [20405450215879790172988429059099376270265338567186168269791588246562774455264660231743153,
    45475950823655112508392051202055513910042653662926842612412994723736876576591929718342794,
    70635783958539419035001868693988285539025091125748844761902895774170467292012789014244004,
    87022601313569508259445774603070557396064441382630076644088283489952107623976907720057304,
    107200651467523064957322524313376737735690388782397625556436788339871605262308201890813732,
    107747586231754447594302302392499193419036722138978686704128000651076410446806544115589354,
    126627232707686478072545238440993646636219754770946886238186927559192255405714622950167539,
    56570795065724309603022546509944154608689434403889254966242137192893915780124992760456580,
    -9242033324662308114166208728404604288916021139194215744236922257769706094793830627726461,
    4215556510034935706357138630601497525825347073182016020805947197211023184977629426965509,
    -2138187082265843308159912193284611012363692671605466135789736877902200964279058585906556,
    969743466943309791769666124404933686939546722438585279248834391689256363605433441746829,
    -261973376814827246057358499350263820747816877759723438586989512103743488019846650092308],
    [20109006181716815207900890522170544024336213096957106966844836864550431977961445836203974,
    46532591209995023739163486242457291433323599648244534175961922615752517764560018163189979,
    68485635178458752431028227770751966379266413797574596601460513090542489382179197329268472,
    90652015019179812835873210168638353065759952157553755968142099800030381439279717816843715,
    101499077493084682138599363879789528353766513412798366246102234182092679965280654489824005,
    116726810214305821980154938335268015867773587225728276409637264091939041638293039378942557,
    110741351700687436512232122198384279900320340994966953589731458790307354112338460467150179,
    123204897164698995213758714870551186825753784114932064614984874453956256856672713552094740,
    51954011884222125578130804826513190846645652299875887304777779979134635891271108065148882,
    -7904439016712917556572517204232462402195039365294953647489065506200291039594143307504261,
    3242857812144161942303797242617909194136599713318433126456618365968835822237608642677200,
    -1348688807964162797109441681389879872850721431965131247925643743693024479872997878829034,
    351249484406879213492828892300010284923938056189049370456580744740736702501749267508697],
    [20350593960592683143507248570482958655170278959535176532445845151663017148852392771552660,
    45677646026065886919357103597482551019688669929069586574782473135478732860255698282599494,
    70200505345650230491664240037431991030503358137463707534257233668267412348680806107526211,
    87828382258865194977667532090070540775792617749320919827938895821614088586461847261656648,
    105750033663205956083654473274677075173005841676724740765852356897981531429542717577007527,
    110537161129099675450802082193383118034811854855334447878795408335702869912466255513124087,
    119931003415288271729535952210890291606552481883025704044890717421394435847791840381555041,
    107786939245760870847866729609373070985876455846113298505262145284653090817369500328946069,
    113128940611046085867840840041061463656415699794219638709473857525560590724841040353550293,
    44536495190486434570011672999024498878203162665254125746698610072286267374687180873679238,
    -6129618302290464252060247844564964865760841719578900710822251512258401893733290711127230,
    2080693238261477718600161761379391026167942486704738690635178079605977486613285759004253,
    -504106061862193226455485042934160940578823132398755405639265922627836071332487041880141],
    [20154558144147651341766209540231199781159238099224982436072860874673926277314197415666298,
    46368109371367680601190820060718652626177048013374213404765181207139276470796215265506688,
    68828400050863877584619581022353052895194272645567770875390091013167327148024834602294605,
    90052723913960520017191917873697993884298919816996915762550335941280682872867710114349861,
    102484728680910794882217858787230546309320134166193402066391671878305523106354949230644498,
    115095310899859590843321829939135396900749991357962188529039051668564777114255178694400254,
    113666714185757120810243892608961087732797954215842350463195345870959487891597543892560508,
    116625593468056303681920026847049370783778962206834470584948412730740078198111537998073746,
    99055277609890688811660232414685076411239811995747535352913946942885054778899195615059642,
    96936022448281554846370887096256510988012705409910227053735838291419281718452247821260874,
    34718377554946809615900444217217866905465679565824556911588754126443130383722383931295386,
    -4008825624399368385412625144015123394335406324486707153711721639778407615063434313188647,
    812054663011731746112169527908313328948551226258108661812588023810919767987500747091224],
    [20309054044162097660809662557076759477957010383153726074781431220853383301979569624030616,
    45825610830667623587263073687252487143067885241946003826256794370367203814898439151034911,
    69900100649681560119183877798346776624750769740862213484998819238565711519377566122598601,
    88332138149555682990502560225672453674623358130927759260512943710160041250118500204907073,
    104972446214455558149170492281728597356742805445186214850662210930678130203757476814870189,
    111705115483164759938902189802961934802793964128122578741501305248909599383592741387279904,
    118143023016248269089785856275557469857504146894906713736873794173643252152322068929154416,
    110759555143680981755270344898262349475276164073385877104277970377106731437977047811481783,
    106950518494670596643365318117994960670685857665036628501338711985358269624176525967562668,
    85049313625299458891347184863954409908311207246428885076402646028123072247620269077356459,
    75480074935341853691282942031827320004633599664129533543665283153430181504994421929694693,
    23030374959432111978605443988449280230920999965559209772097886834898432431908231572974454,
    -1658125934871571892215028278725043032030373523803696025727124442264404577917901451203071],
    [20198441922639567878523652917710501195256920049729359282653779729929464027358206198887711,
    46213326218076269293706502467432577247375492690325057288279987981804920848762000352900928,
    69136792484634173770770515637000877053131105357302231580209901014152019995956667261390118,
    89550837206300926184978250149594175754994374805329623162373334472223556747670461972981325,
    103225315993429724085266803126409145219612131073426174902462217715346462532712195641959727,
    114055173056925566120324926805964824864505543994085859736884562426034696036621786044137642,
    115103582270203188969399423305010359771374297676920306443974212730614202868073249457410527,
    114605876315424591269777284973875487303934670091171320619190912389150448563608801058360714,
    102104959077291331908585129003225924874371587301048335501446182651056159358603680895867218,
    91291260765018996414732439688113275047526846368880293544231551439943232741078835081126200,
    66651139353830813826736970737285619801373805588908577892141988781115788048319064718688102,
    49833821504189955133607427541685522388541869529563097359393377006678052040850294622969228,
    10121001191328969880005398050246515010496636436247217033761651876248615128198177623605203]]
  b := [20242002382657939760010796100493030020993272872494434067523303752497230256396355247210406,
    46060749918864223957210887976898560461841999931118419544195773669796864863816463145948908,
    69436755109893619231800888434435733810931359131649113823177508252886260767444767862590771,
    89072990380972869140023345998048997756406325330508251493397220144572534749374361747358476,
    103908023768444251156261609653026381693291304599751774609555559958269271782542216130297764,
    113141590131448619206045093019888309217378868807778509932484274385787831560249985520913159,
    116275776615436955097294757634417974078313738653398993059332719672380012040351700691361031,
    113141590131448619206045093019888309217378868807778509932484274385787831560249985520913159,
    103908023768444251156261609653026381693291304599751774609555559958269271782542216130297764,
    89072990380972869140023345998048997756406325330508251493397220144572534749374361747358476,
    69436755109893619231800888434435733810931359131649113823177508252886260767444767862590771,
    46060749918864223957210887976898560461841999931118419544195773669796864863816463145948908,
    20242002382657939760010796100493030020993272872494434067523303752497230256396355247210406]

/-- 14 stages. -/
def cert14 : GCert where
  s := 14
  c := [6858095651593830579201366647973599161954296380387059177964594111125222933754181044676880,
    35782558168213241331804430311062867761480394795081190641018776258934453227820073444293047,
    86399342465117503405102628674802519480149449262459409219645472879260084594985563214786805,
    156353547594157264925990098490332931230799393626414662190366755685907551908433371526313465,
    242375681820922954017354640724405668845557358715346981524247615453607524083972169773963990,
    340443815536055119782164087915762266582869398233078021701674906371333279743603608417533147,
    445972525646328168966877674890082626194024197262881221479589469345993235494134996434949656,
    554027474353671831033122325109917373805975802737118778520410530654006764505865003565050344,
    659556184463944880217835912084237733417130601766921978298325093628666720256396391582466853,
    757624318179077045982645359275594331154442641284653018475752384546392475916027830226036010,
    843646452405842735074009901509667068769200606373585337809633244314092448091566628473686535,
    913600657534882496594897371325197480519850550737540590780354527120739915405014436785213195,
    964217441831786758668195569688937132238519605204918809358981223741065546772179926555706953,
    993141904348406169420798633352026400838045703619612940822035405888874777066245818955323120]
  rows := [
    [8779865082937965757958219034547945154926402319281819145374972549104080709452067634419199,
    -3283116230429340867986883162162518189289157811671053986742281180177845881270869950176954,
    2437699771905236483697538675324955674781410543615295861464961487290801945151762672696871,
    -1958099296775804468498377891119973500728836516751020906056911980195421989130609695673397,
    1611167758479463496484442657118848348050091932263326663851217171886588515817426982030281,
    -1330521562702915067726933514461547313941419704112583620645488263440992677125041351065566,
    1089638884662209747850393758777124629997934243053244536651125440347676645711664520215191,
    -876302005740451815114376127002122701931839508176220284179969104130033976604299525260392,
    684693691039925453930883284840597115383668478871335790341886285463569689946564675999162,
    -512348412842921048968187481164774194778189949877079487479094767150833119342189725318101,
    358848231298344463716262218571774338568967421478398597289195177184886162231220493091734,
    -225331048392672084870452601877430245304898629272846343669882469450331265997185521231136,
    114628208600992289517695941405055015514171965375952210664170844664101676682600322684900,
    -32727420446201760788858144824334969294008403691508998899307080271023501768930487734912],
    [18998153590193569203256575345734514389742430490140748678104659681069313399742751466200456,
    20039521789940052451408319265713577395924446348648691300349766372392868614321792465884048,
    -5288286928779057728271545887316981202175365367386651702834498117447311394310041659556436,
    3551411738969722343111167831554993363030726072753212631167015730872083153770278988454078,
    -2718226486889443000892303313467345395276635293504337340610442422377102225193434187928020,
    2163860435224980303679108840293253235687512486857675804496021597649831896743159415494905,
    -1735069964163641083140358505903897761191846921906977598469894764740422776963485586558996,
    1377112576177493576672943315286816219080822752618719952350922010079592384376841358115219,
    -1066736477463803150427482496375169648354214652706004630189655208171589662479241842646748,
    793568026138729677545338924362882018777151852914641027505226965356414597086924713197839,
    -553593219336437327016306954809997203873229769285890962470340435567569734273906422705505,
    346681281269539277437669257943582985389729965495574975722206042660630512777580013099109,
    -176059960671760509587943072474204497858437712606801171849083102702221000259320558949328,
    50221767603297298029247760520843862577304543048589677746871909859935462480175282192427],
    [16855223027950313945646021920425250939276705180300758270158337076299449751308460204932296,
    43567390769640873164623375916851234291875662393209745844033267309622379756118750432895101,
    30379642671975796172353702268119156489167336422518668072768848135789935973131623079704977,
    -6939231755190351193453050196037688937883139283016637553548964643296395817152070876874572,
    4334404705500905400067559144655838458331286956658601998409804731299146760532099325223274,
    -3163515322959435800631714360898318779669502984592971620670384174526125728149871659742796,
    2422772890543591026275359654732135616560725067679318330664304725836806335082830963078787,
    -1871213550518884247723687282767701517565371642411320715375563870718238605595366073144274,
    1424530063839642226889424393499989260824102901303633159250887310385233409975957019924885,
    -1047604303122982896324702265837680670274662707123378224763147526247880231443777880545787,
    725153252625853259256047396927371364277757462606343181487122723285307805034228534834075,
    -451771845981418753779397766857358001547181987140741914317649053337094922905875176566568,
    228683634142081114593321789361645544102427517363687225584884537531223466412969554904225,
    -65121773328480012689631937371354577326696034896296834036274402663663357364394233836819],
    [17997172946590066009484374682739883328600309783716346929954193468859806620153177678067289,
    38268174391563671170117234055213837605364640447559751242638413323260476540275686850902733,
    66123334553687190574902181408969847278403122122192761965481605814769783421029049936590172,
    39300791789548383642400484655960539151417009334330843742329260968692044092402074628489523,
    -8233735364913358267422103502875081722177908000375320333796494505592246133882107854926337,
    4859487427257858459977358569071239593490574242260545464302395509793278902925314064942831,
    -3391283780722444855170298516650916059300605851400179088202677496967689337982595959520430,
    2491199599129466248225103818553098720927303741198545896442027693862662416569269884827110,
    -1840210378751691958129402908717356643791567445613211400724262084508926732709602420153275,
    1327458199476157365304853151188222079407530881592658913691134885314464156350051986929659,
    -907277121182312713726071572431613473091396826715337353033741554519704982738743899455072,
    560545874372256964826230090779136721779814208941364249956774117164850800878845256545712,
    -282277859465565741926729500486366349632167004696800608481511225255066828974554245846757,
    80167317567588027126884059018460999402733993422692569809636771033818974137505618920307],
    [17254761798406629893083234273861563631889332316187063761304781749236202270469796456155762,
    41253397991785390389937677708709393871893846041888400167749038097257519361726390538131629,
    57920462373854404781745279192007572585511110762506118939955643990961197861993202567273059,
    85577871476919731198909053715411569450733305663180645669950561890005612782128579075239060,
    46384599369484453435429147531289259062230650734332914755008731267274587565881361106388183,
    -9128120003068821471244457094827857988146913233619456652509728640077164860582677424988464,
    5129823906586826924283200099303789794528424909019077358492975513993797468932492903933734,
    -3423995086893233684799177739620213666675694403855233251502116272784312179575977915486698,
    2401007712204008412197671183943902459898931262054599041784063811857122086358416134944879,
    -1678593859260871668436591376777127289758676799397777586112913908812104183755838691482981,
    1124730169411854437692375070838123364504474494907983490178816291520531828728710590979314,
    -686129552116775559003003408177508809227687275228053499900395276803203409456787374283231,
    342844909038254845086894540875276071873783311019690468606085812051588615646028379726564,
    -96979385428897917526662972432073693697529067648991138757928872073851124521526572566819],
    [17787447266649898721991578989763111014351708293766738605194338422587819608168751569977948,
    39233759895866247413572522874400276036925463720930759112154468462047012096025982825886525,
    62632719742161539347233190091491221477148825160861037547778286227834395382183661971158893,
    74878715481176031033060929993373006756470125227384607809970718758471274841916738168937518,
    101022753500743341641028589080366962780647944540100179836176084003811440972375381748024946,
    51299615930323900991481016415304513927584765327354862929224322570841786206312430084857960,
    -9586369759531608709511348509197311808287941873782965363865858565962102006610971537758612,
    5142894256540037734148457073242280458501876317980599740555173562499666816603682932170295,
    -3272982002859450160478111099210030724206508370381641581346559220342977394814341394481939,
    2170967146516065158757897819479589583872831969355901943863322325676137187511950048238893,
    -1409790768073486900677320759717806643001102179015277497714328908480862115744799638721702,
    843606984771863475085728612171211046264628034971587074802148236321051528079107658219082,
    -416706606795931371592766062971839052963315610240403245262212794306689613315190013225052,
    117184468566671408063723397267081729560097673792034790145003290335326234911223994248392],
    [17381959820459448152941408295574209319127575680359940921443802833458310261403382600117141,
    40725133888021478765039774544525169425792180504775933011495824023171073904130666689710296,
    59391606125988297749802864606348985780877808895801368036617167194035920360085183028013673,
    81078174713581053274749468189861626065880933972964574865709958525383667087756851216108176,
    88347744362584110891090265368940279260310585131125641317626053212978509038387890660886949,
    111737358469799304747462009589508827513589585901607341856901732052157515031191183130447902,
    53815963365789447548969110829065008818749389513532200054944098135904696838498651000256110,
    -9589445027467061542932160252883842449754074415095452782032991031220153323832873697758841,
    4902420836314288487420357506916019977530752786167110507860377832859398416452322315850320,
    -2951180847012157747383755338098313445908528506595079825984080583110118557215783654204764,
    1819276486534699952093351984960947660713669007653567897039225947118807921243958472523197,
    -1056318524697452009153602233966496817928278820603691152608131330772623077164474696743064,
    512797239918080511166826616528848923969282112945199668047065620174822380298340732689165,
    -142965263485369814388244817198643838926684501757432897470633086146590787100301362946604],
    [17702695429361301330304682886294534148779489140321071188220578184354752206004436631785002,
    39566246339962024391649811914898305867879610584352182932652467124610914848345244199078930,
    61815603868649044353861006770204809796262951665641027298145827602352495023427720856153017,
    76782307092562067332707617326960130642120349661008119587619295990265280263560190784455850,
    95720379585981064618242050400676831570369829975260909336001543117659293688978505866981129,
    97696811024333513495541675323693007877638777868542615350588267308824173996172537853865600,
    117221371759045956640870381911013860087252853442159852891921187303029547000830175698271062,
    53815963365789447548969110829065008818749389513532200054944098135904696838498651000256110,
    -9138126609151502764499976758899799658420055246897615998453086910473942618566322960731982,
    4421454376384795979768029693638238864150716337540188192391409321570666093374831551889417,
    -2476591134484285989948498877940547763046915304302887381051436587999578902952701959129129,
    1367679217963294594904539929889327197456863949235968108920529077543951586178063131396280,
    -646090308141373862223136013098014633943287807478550410796291278385336675487081757942201,
    177770345416483362975029773521680990725228958203697369306142264749851157500752668721257],
    [17442545697309260107852714671828808580292706964771603500604941807872835183992911274590006,
    40495750186676036274409404594398993844812208307537785845961745539092426841958774944993148,
    59915678359179728869621675924067101932070044810065749070735548035258820418184138501190871,
    80011374347170254185478290071638884945835120847676964982372850845864950300548948895700748,
    90598231592452841712100397243098928540588469499309927566154140208873037944250772164537472,
    105872213863507252143440143929819058579376039025091367439795204362026549807439201564197859,
    102489032475038857363789764584887737178996902709083800369333022709309726860393619068341926,
    117218296491110503807449570167327329445786720900847365473754054837771495683608273538270832,
    51299615930323900991481016415304513927584765327354862929224322570841786206312430084857960,
    -8253554761774434770170294017788444656186643071434350326158621469262265840612659535248581,
    3722868097920736251740039318548071546363893441277079674687803178912813342887411088041529,
    -1873434398209947002525785555252908498814152315823701402240589956254523435920415811748940,
    845283684013857489244115657026878754923428976366623488545064282738725132617602105881571,
    -227717100773967206075140920667220704498903655203100314444393324379658189264616301139550],
    [17656709551304829433443101041527964003550333706212629429507873970282012543425661841405217,
    39736198670841850057729743990551878719975109386277692132093446932734148612997556552041531,
    61445414896068367903710407944415821787562360120265389645438091548383075355720033533693184,
    77476853409684912847108594241082954938329544173753703994479705645863556356075438665999733,
    94447792598229778539294886439355645414219978268063607096130376443361279315518560904259347,
    100198224148443793570764361646665125395270599392655126816664581329826450326266444034771041,
    111055921818472128782737399397750231304174473430919633361390312544593705856573279915998919,
    102502102824992068173655021558826227842970354118045322751395220757815596208064809096578487,
    111727351863716623454206489925436885843316443888329182510958373781760737273207537594704384,
    46384599369484453435429147531289259062230650734332914755008731267274587565881361106388183,
    -6976287897822963914108084403490491147899286994518958185292039952621524597324429818260014,
    2838822970097187562962125344230740392823562082531217205582052280618674084270043592136895,
    -1174354411905285487121039177282239080044953344591017567049505352471782133082805606363533,
    304968367469301622833203795234326677963472322376574529445163348971959148434338812682637],
    [17479562848308343488789554010077429310450070645140945720940308327174342444766629649918091,
    40361321439345670644743368031913521141481059701994183209181043970040804057618139177614852,
    60198739469579335379881174445459176256554858636095971895580922154415021145384400902864241,
    79508860700279079998527040884352691775925415495377024837692263491903793167542893156434119,
    91441740539492749505553441911390296045053770587073170596326327649234710975412670225846707,
    104439442239399493941091435739326384498961098100322937259172907226192499145334462589869195,
    105140727132449428849713117839576918916571475285865854213446168577946731260428032115685111,
    111023210512301339953108520174780933696799384878464579198090873768777083014979897960032651,
    97739744433389943522984674261537788261678956412449180394146249631890293509699546104773089,
    101002934103882265138280398565453599846639209469041149843813957040141421265644830067702702,
    39300791789548383642400484655960539151417009334330843742329260968692044092402074628489523,
    -5364049209735598230194776872731534300068449277155425819943909543189911474765803777180219,
    1810869188316433732699404476213317186484252249737631358061119421525260688367898080865362,
    -437442780714134493567936613643993018747505145152708639204248370651645201249042409228890],
    [17624851939204411528606070006467244887179500673459935124786219500871824776268529502675217,
    39850359945738023788223316742065509247746465179933695375114648207254513762230615376863870,
    61211057189933011098486802303095670979881854832178078059855345324916966869169121335976521,
    77876430326470914025544921914993706938556261206055344303171399214098780379769920722144971,
    93816803042091889767182997328416198794735964175789207734780610060797055363206500093322153,
    101174701796808159756072608437109038594345427753406092699197757831298339002648903149791035,
    109503140282097779345661908940897719155064150669475720825263760142527632282592668073656495,
    105209153841035304071662862003397882020938053959385081779223891545972587341914471037433433,
    105762747183607237783593747191507346634839033639302697479119029316209698140774731829458716,
    88434794033468001470790735917922679666130014512007227511607657803250028371230622887553091,
    85540815334287118478254019507958767240717157951678325038207486580680484001956220133853619,
    30379642671975796172353702268119156489167336422518668072768848135789935973131623079704977,
    -3488347189760768261806737385424079500026769695912363243333734564836642527475165501127006,
    704507137925617570270416148670639370576099458262880020591608021908711667595675063906102],
    [17509508398272634217887190308575046447275500095515048613003073188348225956423959986645972,
    40255103540551865412404581603901359289707330409904183772548615847487958228902905490717423,
    60412604062682053067269735278294729992944942879541761169815490228919241433485666146310844,
    79155176798433204611817276266731075506707248437947578447128862372951657919078055679684552,
    91975630712830177193312956138215636105684149615751188482512235569192760534675797499578527,
    103665968338111605133389515326984197503523745307415730488638300349855162075104102012362668,
    106254814155401401521265278342843201418417956274445680157537274261729801292620460642397002,
    109366996695742536181078580164033915398690625948971377708358091036549816453960787587071216,
    100435371425422821679282923990315774619482018167852050053952623544033740515881700754221015,
    95487425225858349871750598376045863519737936762170166850627904956926277356956156400704385,
    75050171840127044941689801480366084939803292595908474853491506206512005031033870268524968,
    66047572272730650072978950423555294180510038212423987848372194389027183340573287818966390,
    20039521789940052451408319265713577395924446348648691300349766372392868614321792465884048,
    -1438423424317637687340137276638624079889625851577110387354714582861151980838616197362057],
    [17592457586322133276705296213920225279146813042255147289649252178479184920673065756573311,
    39964415371279112613298942590022099776334720731921430390035361900121635551960984609083195,
    60984616392344264429577857138115743223639571474310182489207578741030203212260431680641089,
    78242735347798422821084707093349303964265051247183288887369326760199202022572928763887312,
    93281547151811827919826482543743292319239491418542908997496557301700008251104911938094467,
    101914538169607876529031149545768430739785862175838390068106758856220002722678295493716758,
    108508228737319346913052597785132140339430618535240620394068165375939427653601601525772613,
    106542287846916685350087827899352893007500844784011155573237070831461717031285637480297030,
    103929753423350717050688966345070575169110950358822309479094133405124565089749901520781486,
    91158030980489443374373852405459669776411209536402502846166245362662586615945295230746085,
    80559682875872571753299347203041051803562855185412708390715433917579510173934758952652443,
    58321585572046355861009865860913357303553262301422040284072734784289070001111483486713082,
    43362159810309445770803521693589672981138050508968436587441813924963583109914454881945049,
    8779865082937965757958219034547945154926402319281819145374972549104080709452067634419199]]
  b := [17559730165875931515916438069095890309852804638563638290749945098208161418904135268838398,
    40079043579880104902816638531427154791848892697297382600699532744785737228643584931768095,
    60759285343951592344707404536238312978334672845037336145537696271579871946263246159409953,
    78601583579096767284800969311921078302834018668661687484658521937384088184804149256979047,
    92769198738968906870858295062578518124461301468665829510017462534549175131762722212776366,
    102599231860647801982962032830609027855169530654709725858448645141683572412624860169715920,
    107631926731578895097938221658130017637498779027064400109888196271809393676997302000512221,
    107631926731578895097938221658130017637498779027064400109888196271809393676997302000512221,
    102599231860647801982962032830609027855169530654709725858448645141683572412624860169715920,
    92769198738968906870858295062578518124461301468665829510017462534549175131762722212776366,
    78601583579096767284800969311921078302834018668661687484658521937384088184804149256979047,
    60759285343951592344707404536238312978334672845037336145537696271579871946263246159409953,
    40079043579880104902816638531427154791848892697297382600699532744785737228643584931768095,
    17559730165875931515916438069095890309852804638563638290749945098208161418904135268838398]

/-- 15 stages. -/
def cert15 : GCert where
  s := 15
  c := [6003740989757285755217140706693709426513591438119255000001242206305781315490287643638975,
    31363303799647047846120526144895264378001863242347771049318461824898513101477236024726207,
    75896708294786391899675839612891574316871912631503682952136220619662462412927257401196140,
    137791134319914976291906972693030995184550352707948718224288289647938109161037390501949451,
    214513913695730576231386631373044679380806801858625197573367291472902310065120710258292686,
    302924326461218315051396314509477265818623611920650872484417328024195521106519291012251443,
    500000000000000000000000000000000000000000000000000000000000000000000000000000000000000000,
    600597046998717261150314151697298103906418227231318839807974862304974119501510093800918129,
    697075673538781684948603685490522734181376388079349127515582671975804478893480708987748557,
    785486086304269423768613368626955320619193198141374802426632708527097689934879289741707314,
    862208865680085023708093027306969004815449647292051281775711710352061890838962609498050549,
    924103291705213608100324160387108425683128087368496317047863779380337537587072742598803860,
    968636696200352952153879473855104735621998136757652228950681538175101486898522763975273793,
    993996259010242714244782859293306290573486408561880744999998757793694218684509712356361025,
    399402953001282738849685848302701896093581772768681160192025137695025880498489906199081871]
  rows := [
    [7688310499029317088657098394301104430437036208358518566057071376059297366779292009759693,
    -2882076522964395800635469566404963469480765187460320561734615230729426982107187963128497,
    2149771356888506442879471954412299991122763831143435019148075480752906042348881153310038,
    -1738849653802980835587882165780442410508716641968383950227835373764470449080998768718590,
    1444704139157261387088697677163353031708957435336534844187027017590142728502195036007249,
    -1208751245936885466581284858778368391739315746941024461212634795920021243650702235099483,
    -829198279957270056165475383330967556367679535552851589748933289405717504909769855225319,
    668820975529917187940369682561850342967984765134886159358210407584928872297370378254604,
    -523450351172725058136595675165461138475114693203382702669637495057921551039312513248295,
    392046730691602014114395777496627540712696528668551109814218792513926519928191248050003,
    -274715621754918118582794977518628417202381885276916534936926085373156370017610996947077,
    172538127706577039763717164693460739696548450465802628552986390960755239999640365932292,
    -87779060264586875296682018780533916258742965047250360730971974932644785939470141239240,
    25062343754512099487844687216536385351748012246213910001824801547466679837341495873009,
    1007307552853354706271730014607842264548572862215442924143382184479716752542428430058587],
    [16636222750978340498496145041511433419240620389988579879356992342183292568502240642317554,
    17591511872027031177316854112666834616677008188582679956476823228596763878218559261210113,
    -4663513865671399209109451926401135374978430576075866128622803389415771566182365752565142,
    3153542051670601774810279041954960019529938720492828477962927750616783877493293766670065,
    -2437093645418612489270661330756711289859481396647746557309316281944421758883650268338938,
    1965459952117556423198336380162417767293866906169269197106175573283487161415997796700321,
    1302604736461393856780498324651333004338728359143905571228301944030387706442618293512633,
    -1041485562142035619322074497114803505847679483206644892749761074772431217607387129045039,
    810228194455859749132304352513766042290400295946873006183157173135108079689631031689790,
    -604288995041522705160129596905066470506686464434976443910056258395118769048552898209433,
    422194068522064401364461722620928239892198683008109495448673164395111615731080593324105,
    -264629686030523967638173133559915680731650180903691334381982737517120893792285402625096,
    134457272941865614537600421636875842723849881149207386539480951910722445666815539127043,
    -38363540071862301277871259539745936990422429863490956110178044558935196846854148169873,
    -1603541805151709357737591508545906315070397651001265607899972516649344829321905300871897],
    [14759665793583559949557937910945119981059140246071416302359479946282010807575761607253652,
    38245317746405577755536137155376661176481700080851809051640972406615447020942537728707171,
    26789805116792983752967386671467325853885928939525495171755597280469498713078949931421464,
    -6161257821898264527019456046769578909121580883655161128474687840603192940091168279614787,
    3885407784857489956507970252887802668623502617229112183631127045784489794807500439090026,
    -2872587271585009033813308892370364086234945854298486970403417913106236717254835699149323,
    -1768826604343879133944921070440696243896342609697931224261050334636451514941511148655658,
    1389578056630666452099148755675407452799104919271417100609794745463107270470594447870302,
    -1068334410257367258493533359773034081334263421641581111810697777912644184622464236562291,
    790333943391873816513817513980544699918443865424300318053102745196126209244370082327606,
    -549070190929407584415480432400550875152608149222253528879258548400087601852762156664114,
    342837152366744899109634183981507452520990830324927103968055549349169325159412719960652,
    -173768948419062931349295607481125925226462645582672896529654408157906756821286674082995,
    49516101104364297163123091392847537556209963579112449360837377683070412762240250958403,
    2238091847086121489256679486419707614993094733324180131116020345636062574469918388336031],
    [15759762106154140607191770767133142050351097043130821132107443615084206678278283710410528,
    33593131847985418573621158280246239384316997517723467766280987872973215930119074687007589,
    58310085109126866182403592521598433274642017408197864650725512808283042048018575472489722,
    34892669481538578611951198627757080630212568828877810800597782157772111135476952920192064,
    -7379409461739763848272968956238846728562510186781144197716690428164745334530442743007534,
    4410968018125907065555160922060848365640150240523437430999872389160868359467931698471414,
    2352809244738604370789700680093143999324918112978728788338540551979393527703291119599566,
    -1792831589159755795886269260210535968637264633691156930821628299202982587273443173138060,
    1351442636332542112303458648107511940699023821070657374347658597492857892536392352953718,
    -986609667339780165472251839726847938346907442439115784044773599168056496638941928011199,
    679266000451239434163117754700047455438056882732051599028375865742637089078551020985628,
    -421563716075716397819728976520931526757967460811912638141228519886609231793474007951409,
    212853647458382933211580026679769803510278930677697439878683139995141467119094477493872,
    -60531310168263212489686374673951790991646681320138837342512350761866146036215427688400,
    -3130908027513424179342860127974107766288459672920350369949734153361105170488239677858049],
    [15109407741184134012454267551307277254002622362609177236909174612258736880926125822680724,
    36214415253647507657056576140227709817681698957045915124712169062881539799823226035076565,
    51075494890179093914529935086740391149134010906335744600466216238814247481833622806849342,
    75979806400440883304578685389024911349894049771112560062882343157386604644658362401614114,
    41567301454248483388300215120302202782725045024603226830466297640888390803069629427676294,
    -8282773365408805031848448865333521081373225300556326824713141039788510812265895570522157,
    -3230396743949511710499442572849891719424344479282017679153530691241037990396776308147184,
    2335581966151765642984439104861944921930549090383347225247977411894191097069733455994741,
    -1705228560694320335074527489482268165271143761641756091282705591618197541970456722057461,
    1219481954154135876243292763818054060004917190873234237693696586811585221342032285196839,
    -828185709088390761404758010888066258912992774428305942480567216643821683763313625154659,
    509364129493923943341426134730871443767340446968470798239889800899188302510283184549304,
    -255738444847295467362462157213771276455877167350255746280662552380197371372256418529010,
    72513174784847428350447613494353578859949498912343128477187635642638285045343123239664,
    4732869555434124369736985564304481524244202093039840612182946417096952948611050359825571],
    [15576303098908424432922924478997027832358449122723387489366477327502622638055569059799628,
    34440109555179285635357815970501350984693248171630321060417370626309969907994098032865836,
    55233147831263446595955870814165578343392590921253170158080784101916655077961489534906272,
    66478299376112361518406190626689786756846553325209655832333233431279911991446254768432511,
    90532340078546262591617275162285363763800686298108732975647325230284841419362087705536480,
    46540250003890552756700140466605706126556503069482100703873931827503313875674790154737442,
    4846792981406964263007946372722167247781973046373500491080347797678750039650771720478204,
    -3178224235711630949024659182191905582046981293969426909750687787232587831828366911967089,
    2199733186847401408867939733889258244290220522029458609917836935118496721181827476753741,
    -1523020388262840846669415908701393910219541635171923672085669856128285079488795032776851,
    1013218477100328255415551377307591522517732973402179079060063682360193965068895843807480,
    -614961686883209505797295930784540820582186086738132918068466403859507781838119975215822,
    306254025292725873549587624150749981156280541549885042448271463634199176819374090851556,
    -86472436875724120295861466503903818272028195713929444446677573024764386363637395934503,
    -8839443405596032858617695629655570853649888859518106013456812779148288627176948060023443],
    [15502500930295682928188105309329164367510924117552328050373011403404837209638200129704394,
    34730560804930729582201303631199780325608631393772337847463139076601507070770889486820946,
    54515278735106159489230187812376624932217351185887706565388561640444785127285764103922552,
    68164319952359526823359412298229577019836344595375026810082581371384023368467228780572175,
    85786000689348747941299505653833597806989624507017573514361148484327581569085690773450695,
    88626498335584350521264408322117599052367922117206007696854733209532618855643312125631279,
    50644560481390318220155049991879828709665539502369339199176029012858849688686518523348360,
    -8843957449709463546633354878417336520338495358584721992898502781976092553212043596517739,
    4454001672196754992135872611093813200745084021758193710893130445474008895706268183843605,
    -2651397780851781164699075413229192241539534457811119853428553202550799962946431918098108,
    1621019010717630400542984957284584240588793062380594791112982944160198902486677059811954,
    -935668501520191983295414469441973224445493306836716221877367079505787701127864241079624,
    452462939123332772432404594133888907745384983393022065490507380592020685666229035599280,
    -125879932237048750873908520726955506636851700835290918258868651286242476079616110185008,
    108059700113265251774692518100336998929684775337355718735267466746538491319929177663175239],
    [15272966009644653288715427377634637147280504059656501111701395022066182011145142107419041,
    35552346295881237268760031241946707216054329748301580971345254549327221938207822405618875,
    52829194536795912978656087692799062029448633495669689148226876212358610572596945977471778,
    71046362232111082860671215606020709956419194393687471978320205304673273675328687534871210,
    81177578003944235244225626678768112645077592785300491132651507179665034730921251025846203,
    96062191149277261909891317721164299874205900413020778209280850465420564134197357828815618,
    110317896556901683222398533330107809384087807484260151018220857905199155687243130253630084,
    49607871331777894114029581610959831204673139989385498371184481982281199383358567033328750,
    -8292835288986734801481198976986277932899688991876210460134532134253159599289599881378614,
    3965754027997204939429052950230153490210104459815930436740292869062793454860296230486536,
    -2202185581608315937720500769250008420633829992765556470147987011301738273716483674215245,
    1208639734124459642856278933137164771530098168952542249475355503525690647840145137215085,
    -568634048293621479668241547644884756497265244800695606646273575732790798420936336510930,
    156114201767673815646320252275934210518447282590257695467045134954009380591373830748341,
    94463787837382634083904619596134853086943259180120410022289532897728072556646394327571397],
    [15463093434934358297610058255106112679146100612430966576560820325143359119922221415453888,
    34876769718761336481084120601182919252197735835615474870505374993559328579617744431568670,
    54194571920469177011732069273719192528354043965789123261579660964798505207996019838058750,
    68772120485976828968486845878206569737907404684353442522135500633184028305885009996576649,
    84657623296759807623269846149305799475669631684378377333018265137905066685628053888129438,
    90880766820933704104532341199322154008822785616934742797830026719888131030167752832721144,
    96442327981373672177302153611037490171549105958365177907271710228038949337722265326218516,
    108055186069151821086676858851575233262996168838289102755825776743710687393894082126680943,
    46540250003890552756700140466605706126556503069482100703873931827503313875674790154737442,
    -7397737170049295815016844921680958198350596248902279314714729948508059813222828850183893,
    3307039586964795705496206628824374503578584332545965768862330884264310279507651071951618,
    -1653537597677479090021097471230926635620733042202179814569589540977657651803589672063344,
    742914188874776719275892254832318248660768205535038852536275830883557848443020489554390,
    -199682100849790255608727690394818971484376706006350357252334575384027904496985040280242,
    102393966899267419177083822404111567991393261272740423652119651751794986598545500978624589],
    [15304107823273786748963749175107855282014122917804694003636955116475956448513240896279722,
    35438762188901357821996170382547440509809893544515615659234309009573725127809374940949236,
    53070246104092043562593347208203780264004517432082519545271304760039809123647616678293624,
    70613524672165547985307155266402227519338130432183927543676131532188043954717219465538788,
    81915120954342830900357137476786351505445172858333219423238898694965196384797226570155748,
    94785728568475425848474808422693680418384149900605957499030569246624825293320037031532345,
    104519517706730148150809542556609549138755423484020696077505588716958737367769813354843904,
    94482873108121663858322177657615180885102077885731156130186017547465445818106083706831929,
    101363273373189910545248729798544933334486231439520528232461004694795138563615475879997041,
    41567301454248483388300215120302202782725045024603226830466297640888390803069629427676294,
    -6194467437363726080676288133510750089468912113356938461686778841842382373704456561229985,
    2504115343406873591404838256194260558637846972715245743044978322124749944324277055993587,
    -1031391509593445302422867914894040584327682579880555211758522605688012043386107512656338,
    267213256874500164859929237294931606871450054107859895204968139859857852632458196838661,
    96880160697404022585074724117057717487415730888387649517120986552668207669647400610662759],
    [15437152308226897389803883163276160651865719098037175969456655102880460879594799447207785,
    34970170096595679421422128198653899429843737446487662473074963317198386289318024044926354,
    54001173949661683903754502319455583234529825339862902981652423080825606657951373870794337,
    69106072962625917789739279500814113804987080775023570002167188449801585181875354819398501,
    84121212575836746942072682080331253503796997491645569444977368880944838102778200783363786,
    91729057371448563401096822285103900312413982317893544033400205057513769858813187956521166,
    98936311718042032069520399303666513420006160891759949610013517473738305849669745927097154,
    102346650691069212407402023349893770175634739651691347112318698117923503937205373744515548,
    88669531989655198447845120011150563887472855898440763976747991265845759391881648611003470,
    90514012370236730624873399196843252294012600235987597858649285709941526940669701598360121,
    34892669481538578611951198627757080630212568828877810800597782157772111135476952920192064,
    -4730474875540898676468819178663781566870159529146874307214318247344044621860675609646794,
    1589891896068643781012549945087429849037018859441892146672658584220311826318043835412637,
    -383141108095506429877573978530933189477024626413783999993300862965611944719699690891142,
    101008574252715544023945432482130198377983544612462153673190592263765381353990577239795560],
    [15327104896954269880151073697209361323317862453137924682753305374435524320796343768560982,
    35356792692473125285983003832814795158580479022748032809483300865351434513258405196503221,
    53236773081219222606825139158953144255250867048726063239543139011589828100998487142882277,
    70334409154006564808317877687914712135577745806977875130074822863944309872806667997048243,
    82344268965105092960086612726623860865531646183782153342879492536580655396894888773024981,
    94148834418038472771893814292984446334447269560605782519558561432919271935972044546037176,
    103057947567124515574255021054200353663227421614436609622613108360354150892314548195352378,
    96977650816469666738802483735499954794353185245446816611252943618926336192247215678321468,
    95953087279366114547213589825581776339347951993262688378151281568112864468604416008624207,
    79249195123639476820092459987716602896826587431977341477301468235992291811331758416262561,
    75946596784975421750921853302283740169546718541410782729670252156147415211045074119998915,
    26789805116792983752967386671467325853885928939525495171755597280469498713078949931421464,
    -3062294002351515400902428930042991943127683703686449138687325949421919264505419206286945,
    616955204475074227756258877657088879814932170645620829754662805836583925982822412265734,
    97826164606925121775960014466244254956547175059499579641759169219099291496246539618787198],
    [15414984538130496478592068048141954797864494846580528088224320796677529930405438167689258,
    35048566471112196740096107803696793390630166496016152526414165505282805310770302983293183,
    53844239919616491473572946476494567388503508059954681677893177298456118319950185265468025,
    69363144894555092822537935532893233020532938974747512105746891151149110655222825247060024,
    83738891903538489481760559837509472035956776513641430104842651540171900375187811753562021,
    92270271813325245764267976580697646210822605843017328401564706481871519671659949277785094,
    99986516226319242583529601659108324414992350645594772827123756081687311670930418753184088,
    100819284468707497585796754730465568724416677629772262350268936481211743596039039367529396,
    91115040055663549090201944553048994485819139232794932210641688081723140589933582512774564,
    85571696553915579265871091571361116855309571445854200218241911563721203365022909123691525,
    66631796911406555449092118213559201240895198937262793123232636564927438393460612073714064,
    58243124099257366715044225269335787082750288455126856472133997950354768992340265615408070,
    17591511872027031177316854112666834616677008188582679956476823228596763878218559261210113,
    -1259601752919706321181948252909224558366547973271542747242849590064697834943656622798169,
    100257228225697823847381237719034465915193959461977641635118725039334829984324521195702538],
    [15351558654304122077826352101385672475522324404470823222112317950571128053721242523646377,
    35270802804318649229930390244114203149612759342212610273684618432126172542376588663659466,
    53407072105879390466171056178241190968075309428585187714958208169978242186158259496910636,
    70060054584832075342485192233032789677627519543032538136132490400917378640971516837331205,
    82742556177805364762486034463107778024737393520537902551118376489262855086211067607302584,
    93603950358953830571536876608376873391588120832167584110417501150064549302388892822723180,
    102118319242737906496475575367090624975698758540291529988100991315123416882282806901922039,
    98208435110702433521787433207311820144797707116555553818225581780082682014174705636598913,
    94289251253717990979981565791989780644852321885905225868960498450926648995000282544574367,
    81689898769339705389511732563441052533741132613869918816745568264186638877637063819345338,
    71524188616880138059490279421294603670933854299724005551423399689308692720034904609102718,
    51429838876697461063055301388522351716649094047907555324363119080186091383809018709532891,
    38065100267018458155269177791738632702834781564625680474688261687922954738544306485548723,
    7688310499029317088657098394301104430437036208358518566057071376059297366779292009759693,
    98546921688025871040118793539357812066378295213636110583010753556977469894419763688402895],
    [15220506796290960361667876536326274650355625134126779436647097617164585352967210188771045,
    35751657792347683834301949772978553989851281621966055519599920032926318554858054858931156,
    52370970499461507863078494409797486936241759710098448094035839057413306778317754725627843,
    71987524544685473161622898024764169681058967650521178071343551326845960544670389514599374,
    79168848880499761837171377290374252075239985589390523224192302412713988151278962624866051,
    101373335296767840314881479910197690186012695130840411867882395789259787350639180190853499,
    -9028775594121046782088433346348151964756728479521472619868799879481456309870093206933364,
    4751954826173154144154543625784809322403020798650586720079431066834326210070739739086102,
    -2981691141496156396491036787952887621092894274056576801532986810413936382847777519340734,
    1957024904552731532374803561836292920372497263905962528281088102111746875218007829506384,
    -1261023269033925636768818350506548695994056735931850377124640989129051404374781694487081,
    750415696790054527278685650135589678323224383381301195284318348580386853560953885371151,
    -369322551827174914126323016613037982700313371136221058391608092133694181770703883198649,
    103654988413980888598769410967571713593568357060536020412747730052412722413441912100344,
    49607871331777894114029581610959831204673139989385498371184481982281199383358567033328750]]
  b := [15376620998058634177314196788602208860874072416717037132114142752118594733558584019519385,
    35183023744054062354633708225333669233354016377165359912953646457193527756437118522420226,
    53579610233585967505934773342934651707771857879050990343511194560938997426157899862842929,
    69785338963077157223902397255514161260425137657755621601195564315544222270953905840384129,
    83134602908496966776600430240604405565450090049206453660932595281776781606139258855352587,
    93080500007781105513400280933211412253113006138964201407747863655006627751349580309474884,
    101289120962780636440310099983759657419331079004738678398352058025717699377373037046696720,
    99215742663555788228059163221919662409346279978770996742368963964562398766717134066657500,
    93080500007781105513400280933211412253113006138964201407747863655006627751349580309474884,
    83134602908496966776600430240604405565450090049206453660932595281776781606139258855352587,
    69785338963077157223902397255514161260425137657755621601195564315544222270953905840384129,
    53579610233585967505934773342934651707771857879050990343511194560938997426157899862842929,
    35183023744054062354633708225333669233354016377165359912953646457193527756437118522420226,
    15376620998058634177314196788602208860874072416717037132114142752118594733558584019519385,
    99215742663555788228059163221919662409346279978770996742368963964562398766717134066657500]

/-- 16 stages. -/
def cert16 : GCert where
  s := 16
  c := [5299532504175033701922913274833686286862964171177434974388047634337931392087301530731784,
    27712488463383711961005792232695827454430363704463699537223173966695105548658847890217136,
    67184398806084128059766051143803433806332307576236645948244287216119801143754720871433753,
    191061877798678125776664117975604490504058891117171102948101322229133341122594287771544485,
    270991611171386306828790278508211213229984193482238254549422624526120412854853196132282236,
    359198224610370543384769749269751946756965254614700099725582633022037410250434614779279885,
    452493745081181279907340332287520968434823472155467271651390091387437350877703933507620654,
    547506254918818720092659667712479031565176527844532728348609908612562649122296066492379346,
    640801775389629456615230250730248053243034745385299900274417366977962589749565385220720115,
    729008388828613693171209721491788786770015806517761745450577375473879587145146803867717764,
    808938122201321874223335882024395509495941108882828897051898677770866658877405712228455515,
    877702204177501516947550597423721134176906828228751504890878588461148430515635838860311028,
    972287511536616288038994207767304172545569636295536300462776826033304894451341152109782864,
    122297795822498483052449402576278865823093171771248495109121411538851569484364161139688972,
    932815601193915871940233948856196566193667692423763354051755712783880198856245279128566247,
    994700467495824966298077086725166313713137035828822565025611952365662068607912698469268216]
  rows := [
    [6788114852938523712945143114004525878066843891690199497652579768451028416054043312331445,
    -2549815601666420607945690672286377200064091314248789786151311420088454807265590889085482,
    1909099178136723528778011752294197591236101014166226762094993066061755301831427605131335,
    1300386361673352891311490587897502982831644282875102004332037201382077084174518721998839,
    -1099413978104674967438817333633783229728837887497958228995153177669217117029904469521879,
    928810382461165787713007929583067462861379402433784923499300946511687818205203141848709,
    -778400292638016970213471818843128729027550144503971469377483296223379181972403641471132,
    642913073058191572480402310603515783808330951009255066014233268820070249780472711232265,
    -519591764617300727073793902583397648779925457766617017088935918761957594350737054975917,
    407121321020350344602879245931762836442673984654076746245128337058935764717782887963424,
    -305112838734354656103913206664628255557906225025238558253111315623111174657175614389194,
    213868739423092125277034461916633671958550385712520942947989052543227669263483269872583,
    68351093138056819793275957929633077456027516057829106009874717334085959656627257555797,
    -1552939586354458525341568746825702053168688190894588204492348440520768635621688797948052,
    -134342751558613532849595377351066908846866089963101871263606263933442629218801674667198,
    -19515684000583094011481027139068972624721947521294938786138891004605731479955235143758],
    [14688355739094638575864252146926335761288681114566432812568638756092455590737701573197804,
    15563380984661973215710959248594423568746627088226714475325878954883934721760954765302927,
    -4141327175967639968788612328539170126488227013469744882812092613061079634159375489107398,
    -2193454825677980169823238436810407141144342065861801143475614686544824124496969894839018,
    1787439181536241753430718412890576212698213478708327189046330818178903645687066297264759,
    -1478299895669925465962087224984364286521670862015032714803796222798707464196507041885844,
    1222483491890148666255098392200721340547850310792782205819056765391690296476300301285716,
    -1000789335658309828426526790083463575233103942374010607327838937148864549146043841415162,
    803884822279940961686355000181994737102687860977783689422881136252195162331756507118100,
    -627151628945023668023605338992174021935884509421504801066689534760479490372322088560781,
    468554602991504934816921554325165167737296789639077432970510115331812221900310492379889,
    -327706017463433279300993976240049975062078634435637029247149838066310425788007768179897,
    -104467756262960729780516285484118816173301579861635436892199739690841051129756738806534,
    2816240663291797239745363442296659716649740600190653426352253492977713403312309422525699,
    205533641770747263601026242237197994065306782980561453624349911799277718463268450682579,
    29811971511992460000678174176500898152568285820733467718655587858229527278162943254295],
    [13031488757002923923807077994265789573893659748305351992495726132351943278383921547006162,
    33836054138027618059365611686879832856547074772541557069647099973879622383509626017039473,
    23789627920623196202481276900561556588815875795928164539205571807407939894420489861756239,
    3496522172823337620475675666410186315830016201710355365299495548020688422783465709716141,
    -2611839691134491883841206964496565979417626840964488153259298864493157717377748368805215,
    2062622301338370078020088177316311976706512647104117187072901758977065603868885151525892,
    -1659270823798714260000514628033126333005034146976962766533704924853536871754899747906824,
    1334451750877208535874201678705248787283693526920218402810722933755426974079363728716942,
    -1059100235681895855363025573409302334455736556425204246101183758660628704188621571214994,
    819360728618994732230322769157077758052064843534238921422061041935006578453009492927302,
    -608529289730636770195138989976567142553585727404568268446243778326754983421539925220296,
    423816016176219956789937505986880998267228168424832416019675501614016053882187469245616,
    134461891657840509651754065444608594042731308634600102559284463548680144976424770806771,
    -5501892634002194701306496998613491184951848297155223132763362226804545838330520566433516,
    -265040935248507636968787866946169731864450921993214120298244588345298597495675798197102,
    -38333261465140451254724279448836936858266945947129360886213803886665478033646899528838],
    [13340202736275428406790066236301580529344429224487517538217604594937714529340815241378663,
    32039555778696164979065829555304627047794212548828478035640853005848018338818056718257473,
    45355106325856207703240301899199782346960829745379737725139448974272860836316100387753757,
    37398997204144183020375432636869637242622767051959116701355490546840101005104495612944660,
    -7527162113886165228658569540224084453154406691164070898346337932077290611775596990162384,
    4357982319235883448431122147144408299144489279323099789093808588279467924774858025116381,
    -3026238423720182783242713943850744771913407770605525648070049080803200126299099283457802,
    2238609767560493476720809237072752709152797759617877586287855415272719920616735675329639,
    -1686031540196616003378262243582554754445910695050440838260924563798247715959842220838476,
    1259827694501418726876832800088354398599263696709600131937168504349368621354549478619650,
    -913650835738432921668043535352149395301176605761488897988696105059228157658801560476308,
    625934326460294421810833241733622191605652357796120386289251114844490038952940690755499,
    194986345721210110687336877989096180371925409320574664381697498563729904166561544957805,
    67846225328156380452083476766107792000952593925096588735648173891574856768244917175994172,
    -387087528108609216096437675937932713008221315506605324073083669614946397018201985369271,
    -55379586279532816373896483259696354666946803259476739150938554297073756384200739258973],
    [13752704094945638158571969277396268438596781917650681705350301202364247078202067845876651,
    30468942878019499501028442411990404249197911475315998144718244335422193425443120290089955,
    49048538719911266244655743678848484199357010510102282456674911520499132314695467316791934,
    81454747948954690009343467695163851855966273634911298315850076497917872356710612080814300,
    42289129848750634547328019757589990552909868354007070436270733920200916052482632733038831,
    -8136028445684633780318867258944527097540793489316457289698344382258541887044777724715608,
    4537073686656363258750873285462418261628356679994995377066062598042033210399116401359670,
    -3042644859702651020367827816146175069696448905594447119522733902668400428073013671772368,
    2171200950706179410883247522892543284964726918640042510902912561131974037101086469138495,
    -1569620687322661881099025369618307106329843922679669342906800920931748137886324775332366,
    1114146651701653474397320788614716176973967573958006431981133042767779337077899801348669,
    -752443887085733211963936880960638770317616245891750884654559012814349239892402176762601,
    -230806350741480777897190755212045150273537960851774922005074494189379948702441300629045,
    59360391807074152982947349839875036958097695343457675704573878240088059421185997849647498,
    460929012640643666572498339346957200099106299918352057838459569816851926930855254989944,
    65349802562746245958193991912235246350735298615950966983423750731773336223299738398278],
    [13438119001842360161272808886992890894742234640106970298194095368154007055646475790512977,
    31630746946389942560731744431021533691670532551269690936436897377743514660849477125606413,
    46504379622145067575450154880268938188190353522878269932385096952062543632176399569584366,
    71227761758855918753115512620506684201092946320118082616949217920228617989638701480218278,
    92115151892163460174753308514676904395067697381496380286775556274917982672898319735228773,
    45650853761230897216690916992304984845889055913662320604623786094857616237527793740100106,
    -8446427935230748387139933853835256502161919835896994790686981342833802424834102445518499,
    4543801199209732102881730644876359223060937988862210144601803746581609361852289063282675,
    -2937436521179235943695437730375334916416963004296788807868397158828028763069298265717576,
    2011313948527317227209802897811719785529508296624183925781734634647431895187418307992379,
    -1381264174985978584511229920756275015694887809034988374991781526887008693269069813551167,
    913338905274806437438626010877776023634815122983947432984739000767360671703515347877879,
    274062032275837566195147338256160891670397357581201423482661401124673734035974667274516,
    64283005158342910153824528529124310168416224143617829719336546943225557773548645929528189,
    -551919591017902593455885724942516563877453493965511467755993822036944130867668312164800,
    -77261393473841035992045247056932553848224481306704154666348841687721422590257140974623],
    [13687791670766909379607297775551403190809742274383173401897872386248841814609126175899204,
    30725053549677367353546799908698355116594525076327046075720571178519739324557906981957398,
    48412685417913376131067947894977771499493081217897000883305158959717002919985728324373877,
    77187604704627358547967383973061403009551712237506550419284855162622118940679384824729294,
    80527200736910255581047599072889398646104401481370410888740148678220236341471892419376280,
    99442861473875277017338140242834695996288249581214268758972547037967262614246220096538925,
    47362652613767124071349180802070776286727247098975743759378311300005722692283251575033494,
    -8448033421037683535094848255932826448781362092220261159300223333247579229440422418720370,
    4379577422674482431516008411047541285430633534990015274277971835291131604444212900594472,
    -2716714467090420541231351944339408623708517538798423484195953866491464156980266084123256,
    1767674651183471905326705838649471460988721677464578914318744363606841258340857228196679,
    -1131637585645932220635651304153595175388574542551018560854596299469189662778765893340423,
    -328859657486953683278381006855350048715949858196859672547162713309019795541812297024186,
    60863467025027435981076061617663122328593930468941358606910111251568146585739184630456579,
    670277294016365106867027648281658045783796286919552496492480619066072404621373302156790,
    92143652002846380870411613076551865051835251244135048989254827121487221466061741515896],
    [13484086053874201045019874614932499891081852532136263946315904709780569610642024883146994,
    31455621626810900114700299504044197186209204034650288623198920623076889239063721827630041,
    46908978547230027298095526152841455131847955304936776581918662995749807384219606421355689,
    73030319757104894135424159435089803024256812426453654488392236730073360751868133997692640,
    87294974164591689635887391459519389729528254246812564356737421706893296261945531550200917,
    86922130099787312001865825573562428406347478292334625934969600354424100870611374579605741,
    103173338648571931677793209860074379022235856290171748678056845933259024614006925568787359,
    47362652613767124071349180802070776286727247098975743759378311300005722692283251575033494,
    -8141153951413482583956306258224726304510137753889627549724974848252030139190632616338713,
    4051058960591013513608440442290582459715335226643729983801319162181595763493373046701381,
    -2389610296338992507216518699322128524306178133588317016573874068941916930470393598839975,
    1451018602739500045162079478345087743849499142159981365465183963137335374993492168528016,
    401708419646579077875118588490492020898729100126382874931186731248130118964002548648457,
    63446123213412868246873792400161805247832004153652358533229891514174671623511442692325018,
    -833429576666983726105394093854658321861329626040671804894015344901123131144748600861398,
    -111561964889861953717011547542351434676054491002774406592712849346784982501039551236314],
    [13653491099350888461882331475065984309981912264687103149971508378589778254698343765637513,
    30852699937048108865226771158932686245822856818872227527169096508643195709485934863331339,
    48131175432264294998418439526065629741509205085821840546167137436852823919708648035677278,
    76179258583274344625262095194495549500940421912953221777702762620567210703478061039440486,
    82566945748973951867446236617368261320290228411389956946759733205754400209777847158085283,
    94239144043641030377077271714985304608195074831621430017115969348543261238124885745917788,
    90181504028324516039816630959265193350393556209089277374154818853429836022714214086784314,
    103171733162764996529838295457976809075616414033848482309443603942845247809400605595585488,
    45650853761230897216690916992304984845889055913662320604623786094857616237527793740100106,
    -7536892194662191080097268999496923289247960673482239414234088434516150567933054269151112,
    3570232649432447287635352653232590284152587783800150785761763173451584020570289745671041,
    -1968519530575974127586387433116100095972794532516489746961251728520075812815969130543594,
    -503984977065996129309825933832686554177278374816261985785139467975645217327567595000558,
    61401146722492129588799515085130434048808614488117392539390556213938121289029161451106716,
    1074876219101324829512398920854174989441398068978059146026046662753336156664580153928113,
    138110704034687264617477341016160861391453143273428697111064168748049776461610834149913],
    [13510879903314301179932092236096816509782952484764448028321735786170283495884786886264612,
    31357568320065427209319109252400892287766792137305203872656832403957249392224350831234899,
    47118326828605748738390055461776155977532645291937977020572684044999027861910124468522535,
    73683847756586712566353544485124558308271566529960226970729848050912422673131091424540650,
    86147880384823930975755064884798288212149580630693810215448268761333580242851590241410027,
    89130506571755615022498586461717426406813384908684598698344659628583258437954501011061718,
    97767950087236899163066189420287727643150943103545934638279356502679845812639516821839357,
    90188231540877884883947488318679134311826137517956492141690560001969412174167386748707319,
    99437735968146428213700701243554496789318905316641098498945916571973774362100365204915821,
    42289129848750634547328019757589990552909868354007070436270733920200916052482632733038831,
    -6656753540666323968592602421424577370720739530993064913139095404237670346501620854924981,
    2954093820692783043290791256133173114345734267643664267801416974617422539546678949337097,
    657819091304446930393476085198442888295342701137430805933513574345676018078789240515900,
    63066929514852669238202077976968848842761045856993090857029854227519831200625078975747196,
    -1469282878664873839693189877725371021725258918245953378263767905683252525854487593279456,
    -176474389068590732681683049387216682463094134270282710045141665462190246093981221213761],
    [13631609292156580242264182711268748110800634586639875734456098091199130588492287363921863,
    30931775623602736320734581619199750957121328767132854286270060411204139539355347985648050,
    47966343369355001621058991477061045890639972907362934402484227284430826185859181708881750,
    75711645244026798962418908809091423880546710709679722300699677198739430167867792786365627,
    83318432002999850367779206715091626707220473011304540740604299336052463483610715987458011,
    92987739062658410436760096228192524446224022522375082047508496753513480191015429701038688,
    92486695459973754665977552367068799864301696438333609932468767184738725463949767474737350,
    97751543651254430925941075547992297345367901968557013166826671680814645510865602433524791,
    86943725203225910984950711837465561392633622548001541420153763601435764550280729455083831,
    92105421811387434323314609055404065558974143399178211770887805772479122716740862456240046,
    37398997204144183020375432636869637242622767051959116701355490546840101005104495612944660,
    -5531739700389444425845335670099581928509164313995248763272878676869374807512240377009577,
    -912793809372218547643911058115779910300958372375049084989095096080148895296147187651619,
    61688551301306641604427307854274587880837777253305219586086044099860991921779736108229096,
    2224149515390184701722251901923330830670921846476591353271694640543018952524879335758721,
    236026969601619019100219991707471226789258558892881457087554941964342302767271383284226],
    [13529634903656286319116294220195513773609227043640248854083888617762335841316617783286369,
    31290454682161716514144067607768756797589131415161297616600321699354688744265652587433470,
    47255657716988092172802812986797474889759192202324800902191993803721774522522691762600535,
    74046666177318089622773447622005605702158747225904089259110175166333334841914541701898622,
    85599537396395997874074369568914749457285209587036644749564832152946071854529732447046681,
    89963505004087350346009359114170305769970344364633965530974074048055829630187461044229479,
    96445526691730938542429331507343676684274025109960436074198127067851529916964584041486441,
    92519587268850121980382967339255475303628443744926675808361388666737840272571842694336274,
    94185935685821859118907563758371935005475602148474997465942373728527020328985875918232012,
    80568724646055615351576705051978461143418937728964434817452229535846992868171118362199758,
    81437911772758534511237620594274777898901260013801797865979240814218966673760807380686362,
    31157242813883468013119070548004105036221714805550669986187647607352740980366338399492298,
    1406742780454787594273318929754386386750260189191227811822203558523192429029843924871184,
    62834294428168293407331437988708372571463628896369634209585524120726317174522570403161246,
    -4200884507142809996066863300354262346507077650615009535081041193194860289040455321189460,
    -338333283686824424560906113468199897091818596574406526094390933615345274433384269460242],
    [13546417734365054965889608053832550857981119497559665527586503949043827304829923681408595,
    31231229725586907161202434782672965953666555756315064387543957649458710494651666269412389,
    47373722199475645141361527558885915183566444808875767624786793703016602070377711272829899,
    74329439805296861105933943719414109317508237314279155969740470978348389788308680733509430,
    85205411326446292762679644854172155127755621217435645673608157375162311595337587554638442,
    90497822700181853471695478984427974954675423966346857519824691053463037312723830973082113,
    95726094563192557971124888394225016148687598140325498126084461537160309933712546991482151,
    93502821735644099476443263211940831232906643887158705312937565834619755088090202848781273,
    92780007418131719899343921209594333978299782689339673924051368412513939939252094522086057,
    82790820515965027341225321102289404893121523229305813683495137022222928459278199168812902,
    76991449233966346210574103710549681626389876169780034546186595780225026134705961120728337,
    59498244964475138786492777653711550355793689010910686546023041721727768557420367376458896,
    15563380984661973215710959248594423568746627088226714475325878954883934721760954765302927,
    62642191645230369305539135072248260047505508245536977001622445052771792386520684567164492,
    51720583017214032373751166129662283304119978605326073961223236227876959423000355212619877,
    -1112126033217591149973965918917284005154993331186033817263479219190398758629614948534915],
    [13914562989563871850451192341477251653225506379954805521399550470517402106541470894123131,
    29720019188869158837148599567434460750742993987262201138829554351244677014492065605734671,
    51780140348389202401029417101477375524138829242471338613492184808010740077881435044701938,
    -6639917364470168470486755320535503413655725909883564463268259720538764663551816154797043,
    4009535051445653743079334463201519962400798979049706055089238304554839236794147103877904,
    -2884228163360064685525729773761965313697490321150356256694801538811787853930288438031799,
    2205717958684126162315394264886077269826050453024811710395233933273605111994660455730715,
    -1720221464196690399730969903202124110819530912008948555441504467840084532398080891419452,
    1338202518374444087372474870439663921807767462690675678273498141659402844868126435970734,
    -1021277698894728779418330053734768351465472879022503877023364312544239749564466980969020,
    751328230970276417977417651733668783086786878014144143600805927346867168294449523990697,
    -519808800401357381093296892700162499020199285268294237210228906020835213789893604176651,
    -163692712837770082722149110579909660095877238707868665948563789586819300743743056827616,
    31157242813883468013119070548004105036221714805550669986187647607352740980366338399492298,
    323598124258300232159740814325638287872559389531528176219149811094105266318287960911944,
    46594802220761106773992007813537982524460739740150141221270919139720990791468841376521],
    [13614562967342187877145010507457888692991954729327528356191373340788722310141733524191727,
    30992300077666105921770164431744238543450522867818828848092473446219189298545484759799083,
    47844296776494900041931341668069282909496202513849543198709388203161178386336655521709581,
    75406523698019002810946004263715841627799119831322801671157224872006956993630531151109616,
    83758898968882274362425716746022903347767671864479901951119406798466825526512255973150360,
    92360807758143690288744859558019272026233848383749845455348755948375861179244209051415207,
    93390853476657039606824159925436303786170800671031269115945899666256018410487139421350047,
    96384576051332962402698876232174678906459528344928450285290327524864982256321402897973813,
    89239085221123424355361745807293657715071599180220524022174670430738166871186702328674320,
    87190099388635760978497246479676547085237363548978629025800766704894989822343013834882877,
    71301472235465028420275189607329088169415517902207878037411485545659513587425525516173178,
    67816378261769130727544638094621701257395277908256563105138657441510027799063197365418111,
    -2709292168703671627943693189690985719053820596088128118995342064111752939987716486433618,
    61890669611590716069448203590021329074176201442676507556355619713091465906850489329738979,
    23789627920623196202481276900561556588815875795928164539205571807407939894420489861756239,
    544740948874123502083208233743262182240028035075047002809433404550113553724165077656727],
    [13595745389877630519901767255148120728758409730901693934091298427906662563588041859806648,
    31058410876185889611628642539259214060037226660395599844641883192433783483865282273050057,
    47713598592805005937812149178474180086478617681819430949674749878749322418059781398179677,
    75103107247022720696854778480403902740803440328943471960964092409303313184866166840278513,
    84171138376480918750053160269248218269377062723360064126296339503342896340247482578114238,
    91821299287079095160455627887193367340558037285091258226336508108477190069406324535176130,
    94082392154476056570217959293538036789646163246942232452742389331191375134786030438834724,
    95503705520172265112911833422984681302482044342455458988134105896234824566538906791538121,
    90372897140000628645668826055026902228916732424890856285748271243203544656850384338351503,
    85677673675605944062094856848813764335548574595512099101536621018071049221995169935599540,
    73497608046615013149439374685841771502413889821043131398378943892298124926034472503890481,
    63867425214121394551579709842833912125612117801995928176867643655226250596354365596932647,
    33676577570990367039367609169475224337557345490702218736803069329856324250787500419691337,
    62100616888343843900961106634091576400484879225388819029427306162162254291469193529112012,
    45670156663109668876184542048828915586395650577690102316316150548754124487009552118381144,
    6788114852938523712945143114004525878066843891690199497652579768451028416054043312331445]]
  b := [13576229705877047425890286228009051756133687783380398995305159536902056832108086624662890,
    31126761969323946431421918497188847137493254176453428950651757909767869443521909530605855,
    47579255841246392404962553801123113177631751591856329078411143614815879788840979723512479,
    74797994408288366040750865273739274485245534103918233402710981093680202010208991225889319,
    84578259697501269094656039515179981105819736708014140872541467840401832104965265466077661,
    91301707522461794433381833984609969691778111827324641209247572189715232475055587480200213,
    94725305227534248142698361604141552573454494197951487518756622600011445384566503150066989,
    94725305227534248142698361604141552573454494197951487518756622600011445384566503150066989,
    91301707522461794433381833984609969691778111827324641209247572189715232475055587480200213,
    84578259697501269094656039515179981105819736708014140872541467840401832104965265466077661,
    74797994408288366040750865273739274485245534103918233402710981093680202010208991225889319,
    62314485627766936026238141096008210072443429611101339972375295214705481960732676798984595,
    31126761969323946431421918497188847137493254176453428950651757909767869443521909530605855,
    62314485627766936026238141096008210072443429611101339972375295214705481960732676798984595,
    47579255841246392404962553801123113177631751591856329078411143614815879788840979723512479,
    13576229705877047425890286228009051756133687783380398995305159536902056832108086624662890]

/-- all numbers of stages. -/
def certs : List GCert :=
  [cert2, cert3, cert4, cert5, cert6, cert7, cert8, cert9, cert10, cert11, cert12, cert13, cert14, cert15, cert16]

end Odes.Symp
