import Verif.Lemmas.RodasTable

/-!
# Certificates for the stability of the three Rodas methods

Numbers found outside Lean; `Lemmas/RodasStab.lean` checks them (kernel), nothing is trusted here.
Polynomials are lists of coefficients, constant term first.
-/

namespace Odes.Rodas

/-- `q`: the stages are `q_i(hA)(1-γhA)⁻⁶ y`; `num`: numerator of the stability function; `hs`, `ks`: weights
and vectors of the two sums of squares. -/
structure Stab where
  q : List (List ℚ)
  num : List ℚ
  hs : List (ℚ × List ℚ)
  ks : List (ℚ × List ℚ)

/-- method 1. -/
def stab1 : Stab where
  q := [
    [0, 1, -125/10^2, 625/10^3, -15625/10^5, 1953125/10^8, -9765625/10^10],
    [0, 1, -12183/10^4, 5933/10^4, -1443625/10^7, 1755/10^5, -852734375/10^12],
    [0, 1, -11865000000000000212575/10^22, 563117581188445438168125/10^24, -13365068589133407065453125/10^26, 158657964728335169993359375/10^28, -753790331069459722265625/10^27],
    [0, 1, -90620000000000008164898433933498178375/10^38, 221438575378903383950442938197172803375/10^39, 15830392697138030664567170543928750265625/10^42, -1232867923211339471993011497549791428125/10^41, 119607377416185670816275475107537921875/10^41],
    [0, 1, -5000000000000009104885079381495720428943271899225/10^49, -624999999999991655430979676959306418571921343151359375/10^55, 41666666666666362551734995938583914484030654578392109375/10^57, 167166257428946344362708970363409648743847198678390625/10^56, -106895731023902300218356979342433670553694122353671875/10^56],
    [0, 1, -50000000000000077727407393268904139271111039140164253440806745/10^62, -6249999999999919144295073511737944950375990489936658043388036865625/10^68, 416666666666663861505665953881006894746168047719675592217236351837890625/10^73, 6510416666666705571272746350813393971456059253829383879334123981171875/10^72, -2158654806259979522703065155618547523266453737566914621834105901953125/10^72]]
  num := [1, -50000000000000077727407393268904139271111039140164253440806745/10^62, -6249999999999919144295073511737944950375990489936658043388036865625/10^68, 416666666666663861505665953881006894746168047719675592217236351837890625/10^73, 6510416666666705571272746350813393971456059253829383879334123981171875/10^72, -2158654806259979522703065155618547523266453737566914621834105901953125/10^72, 0]
  hs := [
    (1/4294967295999996661633272430414461880715488093084185714034795583687884800000000000000000000000000000000000000000000000000000000000000000000000000000000000000000000000000000000000000000000000000000000000000000000000000000000000000000000000000000000000000000000000000000, [65535999999999949060566290747290983287284669389101954865032891596800000000000000000000000000000000000000000000000000000000000000000000, -65535999999999947010405219376652579602678409127484888215314783840256000000000000000000000000000000000000000000000000000000000000000000, 23210666666666648282763532395354566785408486917535665961154880155404800000000000000000000000000000000000000000000000000000000000000000, -3413333333333330783681069295153093412686655700741037498083958850769920000000000000000000000000000000000000000000000000000000000000000, 242530398616945982000131921961382869515209687854814683343480035609600000000000000000000000000000000000000000000000000000000000000000, -16000000000000000000000000000000000000000000000000000000000000000000000000000000000000000000000000000000000000000000000000000000000, 0]),
    (1/1537228672809141017073566761330086115284361986471125343963644717657996400219907185907979546611242199198141513410973196590470783166530248781433595306914076836906246758189625988280328821087196209654699988729380119884019128176062814587797819759916007854126591385796608000000000000000000000000000000000000000000000000000000000000000000000000000000000000000000000000000000000000000000000000000000000000000000000000000000000000000000000000000000000000000000000000000000000000000000000000000000000000000000000000000000000000000000000000000000, [0, 357913941333336339313900061378428259755657393289643197655460713562306691291225939546910637619129444193232385352632994754360838831614913022833581716969143601439660834732099840691605350680321064960000000000000000000000000000000000000000000000000000000000000000000000000, -357913941333334011318073604967555061860202946913070673907722482938634830696305779540524424108686716636128567181541557272169724249392273639328022756802838379054987157037331097378056243597402963968000000000000000000000000000000000000000000000000000000000000000000000000, 123915661129573133951272066449977851232115448795740945481794360377500621722387071101842981724873139595366221221800783167137695237602485742458216536052199388673303345282219305378926086865422594867200000000000000000000000000000000000000000000000000000000000000000000000, -16170011898119894784133653931435928922679563987360493699438603651468657107891053169397424237100099116922574414706409444315621233298390096059978263166037096456519071143673876811890664257341095936000000000000000000000000000000000000000000000000000000000000000000000000, 524287999999999625287107467908542325251977519298688705315752856879104000000000000000000000000000000000000000000000000000000000000000000000000000000000000000000000000000000000000000000000000000000000000000000000000000000000000000000000000000000000000000000000000000, 0]),
    (1/364518734271630937589886728981775598208120194607679408080073725341154727973238463242381581732517348883699942010188663575296247990979011047962233014644823840792367433536037261604521165166419715219507785439171175989592126751592665298343693317013191214926339309303631239816495579725047435006532424776179671349743982473372073127878886648696455498995062262559089222278445125579694141896568573950325956609899299746009000928463717586248118392859281735655434584906799433346244393640612561848356425551755564148012714441759753502720000000000000000000000000000000000000000000000000000000000000000000000000000000000000000000000000000000000000000000000000000000000000000000000000000000000000000000000000000000000000000000000000000000000000000000000000000000000000000000000000000000000000000000000000000000000000, [0, 0, 15540368321110287701211899548228040003246735371430197433992065572669686669605317565772154864837900868657048158481158191240201164930603013256761089032256026114877454214194072354366002150027365930650494304010707815972651464889166357702562773599022303107374607548774440847482754812819910700243476010230156020590427316013760512000000000000000000000000000000000000000000000000000000000000000000000000000, -13496807221887032660699410192491773563438766059576206314059868195324160623909879462876153636378553685189223763429937140650786038548575385738068758470420870850674025061191400779530458420285821329540889090183781200797366699324488721391434311902085558682613518926132714392634582248628481487065412324060815078926161824082349260800000000000000000000000000000000000000000000000000000000000000000000000000, 4370439374511903258456872877284503942794718514056157733441494043632550428545907451563332193759905978182464104203648367422632992197889745890725041331780513260367447487138589301525430414614957951985256226052514948934448562883255412757405242218839587706033144542162378241536755244194511523594315613233266508420015946888904704000000000000000000000000000000000000000000000000000000000000000000000000000, -477218588444466927198350159831806150141418868197760566910218637846885080516233127776633577369184011420954289447341771372491906497134944318631179591269032924275220752085551273300730413867144839168000000000000000000000000000000000000000000000000000000000000000000000000000000000000000000000000000000000000000000000000000000000000000000000000000000000000000000000000000000000000000000000000000000000, 0]),
    (1/123141914874414750289851592614449971859775761970816203750263967929536884352368060522023190292049341153056352342856071337274175890047237767103453230379328729848557248254574082522318768426083880233905212831266539584433302237300018459939364433256392430146198143842471838686463400356237689924222306262257736412637111047592346937758980654959542056238402715216417395104587698386290752639312124889538265145496882882993338312407266582193707697400754420588752854398379902920252045017852229938850063645064364358761948509766297945630718047098643265322270117199038956235486815991784285081221915125679695545109226851176180552715873211468253884572575047395684263847718449616592167456148347994869765584548608565267709759878305816037994465004268725916373238159062636852882940807061114575952805888000000000000000000000000000000000000000000000000000000000000000000000000000000000000000000000000000000000000000000000000000000000000000000000000000000000000000000000000000000000000000000000000000000000000000000000000000000000000000000000000000000000000000000000000000000000000000, [0, 0, 0, 120910680171496746846208459674682538268782139056628868905943624968558392702288605248687026783716964330503880413987084307592272720762097575649774796121694225544123470373272617180165246322748107793457285151632658840880743144921000540819951332458700572877429716941406149480799451046914948837168338876990236318445753254199459122962218291774637008580801023392769611574344799125916323461135558349498292215509175696265139597458605242389764454715186069723152384000000000000000000000000000000000000000000000000000000000000000000000000000, -34717425518125038844023494454876309942322715091635706615726029782707451707053309236876240888465792851126282373113230889486675618900153112867806592702257830872955031860648451713720394770324278140107460037085899930970596468264674842584266979875997469967135206975937625942316257300801208407303761093961527496198595894518415393849800162685613391287031543758630892130496765553812484809089590549877820775150437923412520603866402969617187559860091091859537920000000000000000000000000000000000000000000000000000000000000000000000000000, 3713153972259536000854409791155931736563638702969916065923959672091169770969141872956882881284835901583305364196439297179994321518707912410609318524076262185347206483865856876508089832558199470860094944987247338229194771479891849328636484993740221886846480372125262497562914554726401736338197425638099842175567264428012339200000000000000000000000000000000000000000000000000000000000000000000000000000000000000000000000000000000000000000000000000000000000000000000000000000000000000000000000000000000000000000000000000000000000, 0]),
    (1/439567553869523080793438566858163464779914927751097955290825772084983003902806789532885781473356473491702047326397339714030212377810457893585002663891444748510189965089673960670592465637892218367052298315677020722956737002352094890888889938450807453253938292365656450746876455355893554589685319572908093641113525934790347760886659694105234259062580991361476729772213934558186777388107358885968381566830692175094348378398449854806721153426797365354583719404199791443099533915222953923097626420798613439075714876720154833078749685119835252895021439746842452715527468338893018451837436057463043680508199700775964971500779631694953427264146089270094225982814443731740975910180557496872376985653571377914728177208202934457092422348912123000242218521893687306234596773523298596270030864228270747914617240602114942310979236754763856320383960295538642805214623548139296759346537281599685102388800454197658183392919171966385142514117877729296435650588108218353118495244840994182139394474242908936589190456463047544315857148124070200515555762372608000000000000000000000000000000000000000000000000000000000000000000000000000000000000000000000000000000000000000000000000000000000000000000000000000000000000000000000000000000000000000000000000000000000000000000000000000000000000000000000000000000000000000000000000000000000000000, [0, 0, 0, 0, 55472920785002060071260458291120754466767738421055803028372470297252146616825850515472098695261489242747249384466040654747541660329452580498100508238926717886976152226259661201570136734545777264828704825507831223372890347233116108762150108409280877412976403480081639901971491745589679453746237215663680657692409401157402336647215000106907892610946463859494860358929216357139671192965527147781399214056002119060968532945884186070326712703088985767560231590572800409761267481637819549516921435192879107426125994618238472865880472745036160112837701158946196553339492313025943586209792000000000000000000000000000000000000000000000000000000000000000000000000000, -8860211465422346979151945076162619583926919734995738411297606202950951793508140009647391805778186169116171486294237101919191220682874599504520991925051416930757421928612693004594967051103017321689577697194370333124712692075238470816551526043470792065480941421801771212627130920781183451842136028769073357540666095441069799136350025057772643657077779207031080491459543023501107076015277768046705844508143265520046779864149059774685356924989103417589760000000000000000000000000000000000000000000000000000000000000000000000000000000000000000000000000000000000000000000000000000000000000000000000000000000000000000000000000000000000000000000000000000000000000, 0]),
    (1/3658028380249066742905356668596468429860886740151749899020509476197581650890106877931995066713795827968893808867295664846504197952090554428150388415040477139059069723304407293291178771509897983720020479326173449955570439951160674112649224800950174305544310681871341709353438588398115787664894760317758730621538947016304107454752314758482824093849766388515098624106237187469405014150978201259468197118475822851711063896362230117022258210598740337207613704164787391439837555862401319168452235932709881220383717741182450515743332084783240917913395833432720932879786437202978345517298061803817049630170046594147879314853246625961800090404292419605301768453595999830526026198472281653410278242537882470608810367850671974504834915872664588155957416023366823710688757583600991837737078752262512510351210530167316170225697315100131410144178503739675778298846962948642379456126757255972449569890812443158880345132140160278589602090376973491194468392012860968748873068282121333314160656925034385510175063280956557717026144471128542260346955293519622453732329235830385495435678622081623820077186239273105133280079752787147014227049580361549715503387330497844692780462181974016000000000000000000000000000000000000000000000000000000000000000000000000000000000000000000000000000000000000000000000000000000000000000000000000000000000000000000000000000000000000000000000000000000000000000000000000000000000000000000000000000000000000000000000000000000000000000000000000000000000000000000000000000000000000000000000000000000000000000000000000000000000000000000000000000000000000000000000000, [0, 0, 0, 0, 0, 1006204155991548945626927906608966979014484712000675574770652629579181945074736771551142653441715602044269596355239299340721018657118839862190647463432805538434994801282333186773991510059306527782428687625668770610185539232133994720134912748020859406615365453743177540043534361297390739215698439686605690247944837954253212444973963338114701430374190147374327713022741266762025209146296736684083298164668391152173173082527529780791594142483628636657253403438238067828945140931332578764588747082262582699936585920060320191176294319847140010578534483651205926875577404346182211207168000000000000000000000000000000000000000000000000000000000000000000000000000000000000000000000000000000000000000000000000000000000000000000000000000000000000000000000000000000000000000000000000000000000000, 0])]
  ks := [
    (335936009838830238221318144751779865135824666081420288222446428331266116230365039551482607381804657742500199/400000000000000000000000000000000000000000000000000000000000000000000000000000000000000000000000000000000000000000000000000, [0, 1, 0, 0, 0, 0, 0]),
    (244739767885444740048162616163653224999905603869989739947308610434323875429294745549742927479736777470001551026611/1024000000000000000000000000000000000000000000000000000000000000000000000000000000000000000000000000000000000000000000000000000000, [0, 0, 1, 0, 0, 0, 0]),
    (182708600093384867548654273694918817781526666164313922611416379765655733476738776145448055227030232370694210188927658312308464431/1048576000000000000000000000000000000000000000000000000000000000000000000000000000000000000000000000000000000000000000000000000000000, [0, 0, 0, 1, 0, 0, 0]),
    (541360967043041949130514517215162543960847178426688527855996466378529532993695062197237135511580721229638214166727448509149086547/81920000000000000000000000000000000000000000000000000000000000000000000000000000000000000000000000000000000000000000000000000000000000, [0, 0, 0, 0, 1, 0, 0]),
    (6961596503478699764241499616450021960210932234570357285150771525246466142646170584757100116174481172552818265874624060101190119/6553600000000000000000000000000000000000000000000000000000000000000000000000000000000000000000000000000000000000000000000000000000000, [0, 0, 0, 0, 0, 1, 0]),
    (1/16777216, [0, 0, 0, 0, 0, 0, 1])]

/-- method 2. -/
def stab2 : Stab where
  q := [
    [0, 1, -125/10^2, 625/10^3, -15625/10^5, 1953125/10^8, -9765625/10^10],
    [0, 1, -12183/10^4, 5933/10^4, -1443625/10^7, 1755/10^5, -852734375/10^12],
    [0, 1, -1245263099999999989346/10^21, 617799722730964474846/10^21, -15262612954822336012975/10^23, 18773310512055840365375/10^24, -9195687145463200443203125/10^28],
    [0, 1, -90619999999999992197783652972182920765/10^38, 2751303795621301680691375806317177329/10^37, -2704441957842805015393640886716340930625/10^41, -9584863786853863123803088272510447875/10^40, 1942668876648155318617520078657800443359375/10^46],
    [0, 1, -5000000000000020055741884516981093779514024834091419/10^52, -62499999999997547557875453434135666612837361964270215/10^54, 4166666666666560936640308668022799783671881320022564875/10^56, -11028850253288025578015920219811637385248917319095403125/10^58, -3753204103344304310838173126648493817154531605280353125/10^58],
    [0, 1, -500000000000001902805234032353995354872995916190199658458955571874375/10^69, -6249999999999736404351373129667791436763413437674067393867285609660625/10^71, 416666666666653208456514331742404387322150800655683060735951724703721875/10^73, 6510416666666959085953136377452550423543487049654806926619063831072890625/10^75, -1432284759039025455769365097081472546534175862054239844082215863491484375/10^75]]
  num := [1, -500000000000001902805234032353995354872995916190199658458955571874375/10^69, -6249999999999736404351373129667791436763413437674067393867285609660625/10^71, 416666666666653208456514331742404387322150800655683060735951724703721875/10^73, 6510416666666959085953136377452550423543487049654806926619063831072890625/10^75, -1432284759039025455769365097081472546534175862054239844082215863491484375/10^75, 0]
  hs := [
    (1/26843545599999948921960932333833650349278551915134597195052600378016137216000000000000000000000000000000000000000000000000000000000000000000000000000000000000000000000000000000000000000000000000000000000000000000000000000000000000000000000000000000000000000000000000000000000000000, [163839999999999688244390456139121401057608349091397687958084719104102400000000000000000000000000000000000000000000000000000000000000000000000, -163839999999999568124889289735647709489993176576285192018112160742867968000000000000000000000000000000000000000000000000000000000000000000000, 58026666666666446167351530811267553481886118717942711267097833057545779200000000000000000000000000000000000000000000000000000000000000000000, -8533333333333285423357438135918174138606635081784556433142732581917017600000000000000000000000000000000000000000000000000000000000000000000, 725334465079046069326747222494171537975840626761033343945569752925555200000000000000000000000000000000000000000000000000000000000000000000, -40000000000000000000000000000000000000000000000000000000000000000000000000000000000000000000000000000000000000000000000000000000000000000, 0]),
    (1/60047995031608918269592884697445943265883765860791548660743975748892488918954992112403677918084256553984675723978296087269313393860713552429892043103607694472009533611596470305267766929569601722649558283192259413886452928922501994420916621717648051996385025273781690607356346368000000000000000000000000000000000000000000000000000000000000000000000000000000000000000000000000000000000000000000000000000000000000000000000000000000000000000000000000000000000000000000000000000000000000000000000000000000000000000000000000000000000000000000000000000000000000000000, [0, 2236962133333423455403451770242342125145445563654137119710312258551794097386091787967364808830554673500884436225834914164253083946859172327485767830757577243359447106860649962514589662928790250870180610048000000000000000000000000000000000000000000000000000000000000000000000000000, -2236962133333364088090306461352178907736549718820506066340336465303189146065461730133238602440366401740364598124163860152654514020197050185411782876941618699507859963793080578896770514169039750000229774131200000000000000000000000000000000000000000000000000000000000000000000000000, 754974534574785606030994892766244045468786909006354878947611324661450659117206945450050611128876239351924844979941892208662336239690604443598438383026593681453646036430358491193757801444753308911737022873600000000000000000000000000000000000000000000000000000000000000000000000000, -91313400620724386217653475002498795496420995994388377386455663399945512212146655859492928817323721544219718646313073753641716253296787568047211886936540553118942423090708920140199306499929190496274588467200000000000000000000000000000000000000000000000000000000000000000000000000, 3276799999999998569667855778921375683856773882432453596760596716531425280000000000000000000000000000000000000000000000000000000000000000000000000000000000000000000000000000000000000000000000000000000000000000000000000000000000000000000000000000000000000000000000000000000000000, 0]),
    (1/186563554351731297669653092599990012224811174269348631781893172884599701275753570044880573027164170599230952040758636581786353704136095003513652678884492174101586813988084535728759349478126437591126025243336206691065205765957312948190423503442004937729815215118236498886068797404190355977661262501894090733076283016841619337575373610780947617713853081241735095578206313433837006878857510938818686123231294632125172111540305998084127204857910884226054950065427292073367341798715894177735983432184935669367050677281310356264185313965633811282348579225600000000000000000000000000000000000000000000000000000000000000000000000000000000000000000000000000000000000000000000000000000000000000000000000000000000000000000000000000000000000000000000000000000000000000000000000000000000000000000000000000000000000000000000000000000000000000000000000, [0, 0, 509035692680455526312231363608995300953619984568062996102881908876292365174759359268722765738451667940294618975387905961605881095240729050991980999604482540951483733277846705645915885207472296576334812075154983021897813105083579066319835372547940622483917312514081690199914535605727938275396515120676921627433000642362358427423673046091694080000000000000000000000000000000000000000000000000000000000000000000000000000, -343996331673465586170335071580284987694604130282509886031941563935509979769676483162452432417618742057275259925171449364508354654289869687574422766960712235668978772706945591369436129812023007221641161827931073958882405200866635678103075384517606891586727627700982077705610329474510844188398567988081062961341809514003621640073664656299786240000000000000000000000000000000000000000000000000000000000000000000000000000, 90472901698654170059608733920833267069051903767330320344376044167078158909144015064312985860769632208574757238493795754232759097065925426310460232240611862583038486896716441579662138672324256036728341161027995298891383193525377568989273379458593278294538533983503351466632515957970853590690266226251114394336858200891245707797136551423508480000000000000000000000000000000000000000000000000000000000000000000000000000, -7456540444445926717907359713130485242737714356777550402193398653827127757721675672459926182688454077646754260964541188484943862790210462184642921036912024655507668679689538860490881509687249407617986428928000000000000000000000000000000000000000000000000000000000000000000000000000000000000000000000000000000000000000000000000000000000000000000000000000000000000000000000000000000000000000000000000000000000000000000, 0]),
    (1/3660101276787404807874761814014029113261132706553881214830196103063518211955112449019820859400485654399209261063743405907368701019915150257301542922857084830463695480911473618257916814318816551702411818647988065969976920882794833405337330840022573501416789783599652261254388336115480448678410824225259349916978703579334775136911772836634113702660096182658025768645100535252784616236600260728108173611961237879686255135278718032914433540915671658615360016088281480500285930542030886492994904807036072640102023725451358519306631833621101680015962170297237714587317094755481000620014885786237185604763386083344280834384052844739932941387745239031249213011643733021487019994482293075562819442068060542129153654084326123269130775521169984929250177799442238338819549146717676428582197413598072961039537583034295468078646230515712000000000000000000000000000000000000000000000000000000000000000000000000000000000000000000000000000000000000000000000000000000000000000000000000000000000000000000000000000000000000000000000000000000000000000000000000000000000000000000000000000000000000000000000000000000000000000000000000, [0, 0, 0, 43885891801260917171118710233323744044338902611848148178380229212298783887720811949999696223678485299013400616371749882886552587149785827033001721110422583546709830025103877080822090390227518206274663387441203174104858577344974331174727032978110265526429042633690603526594717993315189096462963237204439770725188281563146985058822757970083994199222080801261762331847995087023059544615737259334156019134425987808832986874821126841697738332262433753771746301469340768943750470696960000000000000000000000000000000000000000000000000000000000000000000000000000, -9706549895818206422253127471844596668235624484824279851739578793114064748862039702883187968801948790636613129448376745999271820519903429229741094780989029119288312336699252987984421063550339242354542624811973626936923571178616966141506493344819895545857718089637970196048172891349599420348133512277497211403997281526692818944003990809772058971485440670688932676389558573438787066220486678571590425458558271756039614733985228572900229751173472582050936258652405460120764961259520000000000000000000000000000000000000000000000000000000000000000000000000000, 719810611478357816828703605890395338594125637473359443586392915155209464513078647559562007772509288559220590660257793036328171023142346118562552579712961980106850715980033020860646188997553961917336171771569180318032217016501121417309990176195434002982919894036786993284866294966494806253863489696302875679960982016441946601804967260979200000000000000000000000000000000000000000000000000000000000000000000000000000000000000000000000000000000000000000000000000000000000000000000000000000000000000000000000000000000000000000000000000000000000000000000000, 0]),
    (1/1531923040273885968537539133902959041484366155331991310172377121958717668186205067726731830589447265956191720283659783060846570285692258242452426151649240697845812115015685777192685186615382804833869799659404353805079478165006517453810475938225740689956980339956949140200886040065304227059699170708725019405928505901032289958963511071973492558493878238510935272579943622824579539910094384164692468014451541744349993559588147627918981554559156099099767900717650036432037615592934078363652668370958508096624368505767086887421802923124818048547763966460001567017783591271537637503958906558391622156140631369245963509306192189261941212484331329050753071466879785391040799324995139559689906110013418486978882668764237490504546887903699019033020771863644802045461005107533458815681403180825265283086612141272439994781501780984638035732553167247976638250347707744904607886784690013787137569100335838661587701386689963488787882253143442603009783295853698589017644552592885706558135002658810187797511793194251508897814960114109846247868392324540603292787642882156767300829642547908703668136514021958352896000000000000000000000000000000000000000000000000000000000000000000000000000000000000000000000000000000000000000000000000000000000000000000000000000000000000000000000000000000000000000000000000000000000000000000000000000000000000000000000000000000000000000000000000000000000000000000000000, [0, 0, 0, 0, 213055171692797236583763247145712075468917480469784577629524406452253618322482995734109604892650634691978390443294124220688081607908652044106017868654440554959997952022311675847859007693385009061397768687031660591803382378166319429291908250528654981699789871354613922970868888430883495806010221384320490250412233320612254050663861766347196490688618693934000862892199077763716510729734308480486615977814575013648859745297226196746046596548729208318101787564286903056429103344205257282681315189245341913327528757944557870899112496319835647271151253774579366478578977180404374493351068970700620589380088119178182000640000000000000000000000000000000000000000000000000000000000000000000000000000, -19531657723812267629247686878214447389504880625488684355550284868587892011889712446550043998871561105874366988280278494126462453078122569145550230652656182410972276440558388378431791176274329802322261093433194720411925537548136996457055356326074535806092202368795709493153716415925988389552054545601253262169449193687637629563320882581410294233397563612681630961200180667871056676222184215908164384835675115607202256914205975065516279089133114892246434444952336457271344889856000000000000000000000000000000000000000000000000000000000000000000000000000000000000000000000000000000000000000000000000000000000000000000000000000000000000000000000000000000000000000000000000000000000000000000000, 0]),
    (1/613495822072292794174605091523166797998217016748828534735423752111170664009301163679593484440127607648445977449091106760477483327441344087853969567711770721233004861739111675085626822027076122666942150258256934471465539860922323368485220738067631319031423198770954607101541347864544463183618766953514402946386573778609040279372875662590576195725695474836377420376866283393139445233681384188509046408496971826037031621315300557706821608380784473056217502997315543796883121527086511760119625186660709439128054003621977507007987681684951980125259510050107924623571640889747813229160949527170880596792879507155681458895642457604654110687249040105478453872945521320951817041137539964650579412886123929909389794760665364032355582961791636901677257536230398515767946934960830379445721969783876743994719741799943432978293694912461644243316359489782797136462838758154056904216597125835252877881937783702261504738129604426891896130858073991064239413401153264733653453451956127529499681810070377330044607940045009229558252749380755718525125540950406201907819907500391484154800304135608177921715371621522760915343776320640949262570342772303823233138582452637256526410333130041026144143467367267709398526287299158972334498980518607601679728640000000000000000000000000000000000000000000000000000000000000000000000000000000000000000000000000000000000000000000000000000000000000000000000000000000000000000000000000000000000000000000000000000000000000000000000000000000000000000000000000000000000000000000000000000000000000000000000000000000000000000000000000000000000000000000000000000000000000000000000000000000000000000000000000000000000000000000000000000000000000000, [0, 0, 0, 0, 0, 17575172224824471399370575129399486675340929250240903051615579002433089195082115265770467235830149080150233847989556245467639384656193482781152358963714491891067563642989662288488522212187424601107633361256798229090640076833178882411086994894903986751585064390723833065790851774490963954345541865978999945918152770635392989137624640721774909910869795188406011473506650347685835438008450333301954608027104919821652415544233146836040250811104111050067427834837507580786194666943258163555724360856987814739130642576871793277980749179725741186946581343417039018416947776657275271879156790007957950635958152932386406400000000000000000000000000000000000000000000000000000000000000000000000000000000000000000000000000000000000000000000000000000000000000000000000000000000000000000000000000000000000000000000000000000000000000000000, 0])]
  ks := [
    (8624915810572925512060500671727608099376216612142373161750667313146983634411810340635829885363376534259501991432829999/2560000000000000000000000000000000000000000000000000000000000000000000000000000000000000000000000000000000000000000000000000000000000, [0, 1, 0, 0, 0, 0, 0]),
    (23856893446185662553911420740836146868180549104853102745060092806622275686087487706818917560430663606259221448477441043061/25600000000000000000000000000000000000000000000000000000000000000000000000000000000000000000000000000000000000000000000000000000000000000, [0, 0, 1, 0, 0, 0, 0]),
    (9222292956330338004570732312027311507063697781636821856485398877771469797408725555172094460738462756731385475113396269586677520695754709/10240000000000000000000000000000000000000000000000000000000000000000000000000000000000000000000000000000000000000000000000000000000000000000, [0, 0, 0, 1, 0, 0, 0]),
    (11000094312142735807256917290627859445412833064344559660023233958448481168550729825044231221545156334693071427807139577798439845498868863/163840000000000000000000000000000000000000000000000000000000000000000000000000000000000000000000000000000000000000000000000000000000000000000, [0, 0, 0, 0, 1, 0, 0]),
    (601392130860977485901905349589286307283434430677624132650074052144294883944147120572810344190793058076544765365898647328108479557658519/163840000000000000000000000000000000000000000000000000000000000000000000000000000000000000000000000000000000000000000000000000000000000000000, [0, 0, 0, 0, 0, 1, 0]),
    (1/16777216, [0, 0, 0, 0, 0, 0, 1])]

/-- method 3. -/
def stab3 : Stab where
  q := [
    [0, 1, -125/10^2, 625/10^3, -15625/10^5, 1953125/10^8, -9765625/10^10],
    [0, 1, -125/10^2, 625/10^3, -15625/10^5, 1953125/10^8, -9765625/10^10],
    [0, 1, -13135039999999999375/10^19, 6885039999999999375/10^19, -1800639999999999765625/10^22, 2350024999999999609375/10^23, -1224624999999999755859375/10^27],
    [0, 1, -9062000000000004417897437641723125/10^34, 222349000000000493842307823129234375/10^36, 1681324999999979528942304421769140625/10^38, -129908124999999626282852536848076171875/10^40, 12859531249999974609375/10^25],
    [0, 1, -500000000000001200837845394122571694462468603125/10^48, -62499999999998919496012467834214819287427517/10^45, 416666666666663282243876035766114773554266215859375/10^52, 260416666666670834567387306327027084258363633984375/10^53, -13020833333333347925446651086548828125/10^40],
    [0, 1, -500000000000002319292924834666868436030097191933472495519138671875/10^66, -624999999999977511934250490008955299605356140264467875214402734375/10^67, 416666666666658770049699120937563117712616285951420094500266513671875/10^70, 651041666666678867039449436526448675942630133981621085006989599609375/10^71, -22786458333333405582739890711194436916844909969970703125/10^58]]
  num := [1, -500000000000002319292924834666868436030097191933472495519138671875/10^66, -624999999999977511934250490008955299605356140264467875214402734375/10^67, 416666666666658770049699120937563117712616285951420094500266513671875/10^70, 651041666666678867039449436526448675942630133981621085006989599609375/10^71, -22786458333333405582739890711194436916844909969970703125/10^58, 0]
  hs := [
    (1/70368744177663836794269499243226611917063200586863421424104126254415872000000000000000000000000000000000000000000000000000000000000000000000000000000000000000000000000000000000000000000000000000000000000000000000000000000000000000000000000000000000000000, [8388607999999980544360816388514830102570438454969337156308189184000000000000000000000000000000000000000000000000000000000000000, -8388607999999981135643174913449304249791188736107163733376654049280000000000000000000000000000000000000000000000000000000000000, 2970965333333326709170906644348980946974899467726237021608569167872000000000000000000000000000000000000000000000000000000000000, -436906666666665643225219381411587404253982453170407015133416869888000000000000000000000000000000000000000000000000000000000000, 30037333333333272726138349086094865692385945346662400000000000000000000000000000000000000000000000000000000000000000000000000, -2048000000000000000000000000000000000000000000000000000000000000000000000000000000000000000000000000000000000000000000000000, 0]),
    (1/412646679761801357614946820112815145090065937754078785327398481155081878928814555704673691000905240253270643878978989770442443410094127409691382274937588978345640519083064358931958642242332956243058851360965682045935107574950046163101623018864833763087482880000000000000000000000000000000000000000000000000000000000000000000000000000000000000000000000000000000000000000000000000000000000000000000000000000000000000000000000000000000000000000000000000000000000000000000000000000000000000000000000000000000000, [0, 5864062014805459663527239629522696847774863159772668137224577673962028968426716281577146923549978480749012610315948745074547879768668058933782906218778736026931476775342426809326412759040000000000000000000000000000000000000000000000000000000000000000000, -5864062014805361145415248219074099619166659114494814879691718712392087316130253658054610273497106126648035935795229998135461379122642574123533224430271621470209666187743537196409371754496000000000000000000000000000000000000000000000000000000000000000000, 2038677809834665418537690846843353409872786968038173977436111089361845182810610284146374549592721908234704520631927781148445329479846560376785352958317766322677446646625380123504534749184000000000000000000000000000000000000000000000000000000000000000000, -269151283882665906982395519832919775977238180055069314976029583558600787954313113011225847533093221184109741790063785183727780733418614730599884076008612332523652920357683200000000000000000000000000000000000000000000000000000000000000000000000000000000, 8589934591999978866479205722773382971524032402118332418223369680322560000000000000000000000000000000000000000000000000000000000000000000000000000000000000000000000000000000000000000000000000000000000000000000000000000000000000000000000000000000000000, 0]),
    (1/1312817773617914350842317627273685645678008760647040409021641728267588198322105301080682875988750150996193329770567415573640225908617398959821672099705137149679053427836190626522135783948675159987372543416369444435431270280295332719133971488633101624401501570437329597579044218359981120035407670317045766917753169128266215818879732938258572416789852018331208530253175278628332401151022009274638915032811461914274370012919947646824195265893820433979473407525140383225721416901505768612966945051969060864000000000000000000000000000000000000000000000000000000000000000000000000000000000000000000000000000000000000000000000000000000000000000000000000000000000000000000000000000000000000000000000000000000000000000000000000000000000000000000000000000000000000000, [0, 0, 26687997791889285446535229283091616567355070718726059604607075774265489529616392661829633983527689646725505960263146553596222291332213457185922468551060786259892481734151701845185897767987039332964832006759842882809273036338198645022943980492282120784464118600228553559870148949596775979706194885185073525555200000000000000000000000000000000000000000000000000000000000000000000, -25353597902258096339911103677134269080931754721762069383506925086980277611233564718588719047274609909358182087280607889449349009751813692258466448263249421905639767836216694420830048157496512661812474345436204077236027074449042083687301834580371287428878851120596460754342945489113021213721806157778739055820800000000000000000000000000000000000000000000000000000000000000000000, 8673599282346510430344621734726389055581639603035205713481442345025235460481861242520149602030551060317005601071700669579838771302721425008103782106272141245944351652340845900320171708087838189240861207737100720049193338713717137834747867602931590047589468754604632992147520325028625692061859840000000000000000000000000000000000000000000000000000000000000000000000000000000000, -1000799917193566463608744028945053907116329823474428894618898446488985136791327078578496199531684808192219370929455850952656161191744397445369114490260752015224340879909313206537122467545088000000000000000000000000000000000000000000000000000000000000000000000000000000000000000000000000000000000000000000000000000000000000000000000000000000000000000000000000000000000000000000, 0]),
    (1/1907680725939623084625045068350147519229512802998853155189206087149990832242700920316590537798171379739063080959451936758597714762122050683408689808862456101457513698552146453227773994917002702519628948210848549918629179529507506341011838062176117381286970608372184361251522955233592349377662321285916227273093178708086591918453539682069988258865818507779742687475399622468695959840327616111483319699614308936942326522525095395526892696828027598873122954325090761834533721804566111374778760847936534604640082377756655741535337844214167495246189316161947699226401639524088795424918770501319923365037967749049274806279260754367250050349741353660243722727991846907304920533570718067811613925294021495355317438893374965066014956580617877024370809896960000000000000000000000000000000000000000000000000000000000000000000000000000000000000000000000000000000000000000000000000000000000000000000000000000000000000000000000000000000000000000000000000000000000000000000000000000000000000000000000000000000000000000, [0, 0, 0, 8521181161746572376491999269384989700307327159256067993924717649753989931296557455965597944990027000382938614651189011490449576828831974217233332472534601799237386647536843581118456315912507009316670342712835457691718426548775292073437993540097164888305701355772593124123564552904261002839886462936613688613891172489188387419330014521261184068186739789328529016228315213336050986010614234489400333316175218072444823887396581513625600000000000000000000000000000000000000000000000000000000000000000000, -2614237650417325447376452000711402631694476662081066509228766170525689972491441488425204358354568012980301365333629260897620481007468483963333504390462198467869504204463156505627747027594981761694945942076132619753760965504436958385849929328303257660609583775784409763702199873065499299762055012434823185408911658850440099212903604558894637023822604951624173859192029989502179573806044935545566876224515045179775148510935350719283200000000000000000000000000000000000000000000000000000000000000000000, 405657566442758563104759470511913712507278319141939879823348978394732194556410163578641477462343447977561752520957263707795963210155250490378314719693748650871704347326292578844571555315549872502335386398180590600396574621971229516821363412621964460055689872583438700829723978064219719280048263306259610992640000000000000000000000000000000000000000000000000000000000000000000000000000000000000000000000000000000000000000000000000000000000000000000000000000000000000000000000000000000000000000000000, 0]),
    (1/14965712902343957488848683255568480984714292070916338637834637392300185376675432338128038481821874537853614531208140774803730528121904588373145460842782275021456796957316683192568817142355431630247497055041309702043716621530128905346698305143369767649138678813468682055423661117023308404258661422088569818368738482572500280228836280360492054091588184694768354265682394785037837086856320403460115746257045751247295605582400018272762352583551362750897717111175517834902946561694496990558359901108849076783811565166282776988357701922830909861323449168831808926963784282081513126345310245449490883001201463116169397443369740194453133452713967373479017914855276767720303668486601317486211057030667781218599446526490439458310585585684451334954913558593064498010346588136307858443941971830870879852573924248493199585635321453656682550267993461047907211074712900757463379647837130813133285353529588682923101961048129042340717843547387695117114262122705573355218631127519999436836455703358503900938240000000000000000000000000000000000000000000000000000000000000000000000000000000000000000000000000000000000000000000000000000000000000000000000000000000000000000000000000000000000000000000000000000000000000000000000000000000000000000000000000000000000000000, [0, 0, 0, 0, 209366749614288153891775393589016371934093178204727514459328320679412607179236310722028590063217609145280341332572401079736577119574093613823005558690863641341046975819452208272581420702797460504566915588455146885629239420590301332564722920299482175004067310846133459411076193878142438042863657809546986146833756214158962026464348482771864840103016685563623729531767016614149394154462179754223694602815337224336063066732693165047977223586780132976849978204392082906041706956718504818242154062620674707601974375186537300179155503065854765003652578725068800000000000000000000000000000000000000000000000000000000000000000000, -47179635563795842904417894886689618328921051166791543942739257926496053130592490646436665928842427313754580858703187054745190054422923905784933118253789172564629248825554201383428592552144073639532027950715018765161572910671902521966050751653763583514832935545986167258047763499676888275564369475020752728826538928773709758311138127743224590883683443882365099322196369481498137483495728451405981530576896121690749392334763780472832000000000000000000000000000000000000000000000000000000000000000000000000000000000000000000000000000000000000000000000000000000000000000000000000000000000000000000000000000000000000000000000, 0]),
    (1/598895165770320313779474070568760407930899457633773838824640972026957769987633132287210926181373042669624721652748099851052895297307125310781848137996506276399699986282817067786433880707396528039203013343528479122789888485964252639711203155512940632225712066563885576398448928751379625214771694815620893310825656763091654957414898506719283432691715972683140835815646423329355868913060268246384549259207214665666081578522573860978178555992962472353422640469692436591134206835057629464394627714010026124409132372200801927850412981385645278974779669348449425892604760325454040222790145375202272546828367039779194979134147721352299306910337145934150435051452103258596991802777147679439339237877636377639717070183240924704508015387141332487853869086876811342856784380252753978785481247083028931619699043211562329108408527349055729436825557758955428195878893606474747651870930259430246176716322946554989612656344215278221041865820258147347814906519158576834616165860707669375166562460459661453490928606378130155274718897297703453863240505310422395775793296085209691952690557805650920575767321148361187185094201431818240000000000000000000000000000000000000000000000000000000000000000000000000000000000000000000000000000000000000000000000000000000000000000000000000000000000000000000000000000000000000000000000000000000000000000000000000000000000000000000000000000000000000000000000000000000000000000000000000000000000000000000000000000000000000000000000000000000000000000000000000000000000000000, [0, 0, 0, 0, 0, 340999071525944933134344347544629105678653776260412801584032719215147222008783708124738718580776966334679007326263941162563871807027284517074748511990544171959443302986920147003853506701297068653997493030589961948196612866847107592792292198768792583801925756432166198324134169528786561532888055849553537300065558407250072419347009072489595384465977566465731211199971203979374936222854012504083846959964133170727130565620218053999651668749678304369284191005372859640599690672403537496054542227595296491223692502238447602149866036790257180043830944700825600000000000000000000000000000000000000000000000000000000000000000000000000000000000000000000000000000000000000000000000000000000000000000000000000000000000000000000000000000000000000000000, 0])]
  ks := [
    (571033577080049096821146292960968891541370851663525807603586585561911016817239276887364981286740481771599/262144000000000000000000000000000000000000000000000000000000000000000000000000000000000000000000000000000000000000000000, [0, 1, 0, 0, 0, 0, 0]),
    (830315760930206912155514777780136954697753402838688345372899771564094787073080068164915247941269022280448173/1310720000000000000000000000000000000000000000000000000000000000000000000000000000000000000000000000000000000000000000000000, [0, 0, 1, 0, 0, 0, 0]),
    (1/16777216, [0, 0, 0, 0, 0, 0, 1]),
    (1048576000000000000000000000000000000000000000000000000000000000000000000000000000000000000000000000000000000000000000000000000/56888888888953943986826557059885134392169613758054262674081268751266183029431418632241414311796029969141360212059916119839, [0, 0, 0, 5425347222228426359827666955936921538559876800351549403579832911612146666472570288871900016002276417650352498250953304275417327880859375/10^140, 0, 169542100694374041940642569559767012014384132006539150537871641217301001770652922608745798930379303441712552067716196341621875762939453125/10^143, 0]),
    (1820444444446799797698956381292697432605309231825409205546591960550033721974210221415017755005529075989490454437319074687628661033287571292082625836457684969171349435644019987526295317398119212689658868117092421264531226527289692445628402295119/3817748707559921329275561209320071339545833274621792418415196189576172104721221070318155088217973370939031739246140070737683152896000000000000000000000000000000000000000000000000000000000000000000000000000000000000000000000000000000000000000000000000, [0, 0, 0, 0, 0, 1, 0])]

end Odes.Rodas
