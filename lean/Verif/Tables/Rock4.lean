import Mathlib.Data.Int.Notation

/-!
# The coefficient table of Rock4-NG/include/coeffs-rock4

Transcribed literal by literal, in the order of the source file: every entry is the decimal
literal of the file times `10^19` (exact: no literal has more than 19 decimals).
-/

namespace Odes.Tables.Rock4

/-- entries 0 to 0 of `RECF`, Rock4-NG/include/coeffs-rock4 3-1099. -/
def recf0 : List ℤ :=
  [1762962957651941000]

/-- entries 1 to 3 of `RECF`, Rock4-NG/include/coeffs-rock4 3-1099. -/
def recf1 : List ℤ :=
  [1067131485543800000, 1296319693918818000, 60979846098696320]

/-- entries 4 to 8 of `RECF`, Rock4-NG/include/coeffs-rock4 3-1099. -/
def recf2 : List ℤ :=
  [729637528635756900, 874982486714932600, 61269498053544460, 1026802330400501000,
   302674477990085000]

/-- entries 9 to 15 of `RECF`, Rock4-NG/include/coeffs-rock4 3-1099. -/
def recf3 : List ℤ :=
  [534576659173522500, 642111448849746500, 62972513350723490, 736106700194459600,
   295424401287685400, 845021300794995500, 637019813861856900]

/-- entries 16 to 24 of `RECF`, Rock4-NG/include/coeffs-rock4 3-1099. -/
def recf4 : List ℤ :=
  [410254107397486400, 493673418128464400, 64375484147815470, 565596481991614000,
   300867406800562000, 630133799139204800, 609251450345891700, 712211673939052900,
   1014508394981259000]

/-- entries 25 to 35 of `RECF`, Rock4-NG/include/coeffs-rock4 3-1099. -/
def recf5 : List ℤ :=
  [325609877250185800, 392399455084615000, 65487915827399220, 449951188619414800,
   306103482143249900, 500026931188202200, 615733957828954600, 546551633629179700,
   957053888197476100, 610433302023239600, 1406290220864037000]

/-- entries 36 to 48 of `RECF`, Rock4-NG/include/coeffs-rock4 3-1099. -/
def recf6 : List ℤ :=
  [265141777729421800, 319910035224717600, 66374163380300120, 367147304847172800,
   310464665398554700, 408080850656111100, 624078039784048300, 444169743628691400,
   960825653983333600, 479079095349160200, 1314940925346221000, 529922519573157700,
   1795490141555294000]

/-- entries 49 to 63 of `RECF`, Rock4-NG/include/coeffs-rock4 3-1099. -/
def recf7 : List ℤ :=
  [220368894640730600, 266145479817479500, 67085090739738030, 305673095857384000,
   314046827413131800, 339915398608568900, 631434764748882600, 369831435802220300,
   970695091662435900, 396649482019178500, 1312524251550016000, 423760584248105700,
   1670258610104497000, 465131125997826300, 2174924541420837000]

/-- entries 64 to 80 of `RECF`, Rock4-NG/include/coeffs-rock4 3-1099. -/
def recf8 : List ℤ :=
  [186225074152613700, 225086157653878800, 67662020222808210, 258680588292448900,
   317004234603281000, 287795300808619500, 637671402386305500, 313186776245077600,
   980178352412306200, 335586405620185000, 1322218594416999000, 356068823122530000,
   1658724905539629000, 377737167357727000, 2016177039517425000, 411969878119168400,
   2539572842035754000]

/-- entries 81 to 99 of `RECF`, Rock4-NG/include/coeffs-rock4 3-1099. -/
def recf9 : List ℤ :=
  [159500010193361500, 192909808032914600, 68137710918926610, 221822606054839500,
   319476305076812100, 246895184904197200, 642970864384355400, 268756674868550200,
   988539813476707500, 287968704731582500, 1332911334324939000, 305102426505075900,
   1666672556601528000, 321118033913408400, 1993212628717513000, 338784079853022300,
   2348117800966209000, 367220469884708500, 2881723275817451000]

/-- entries 100 to 120 of `RECF`, Rock4-NG/include/coeffs-rock4 3-1099. -/
def recf10 : List ℤ :=
  [138161436950412700, 167192533893298600, 68533967147977050, 192340536658846700,
   321558647203148600, 214162599656343900, 647490754815511600, 233193759011589100,
   995800877251404500, 249902476611443200, 1342748583683893000, 264705076387146400,
   1677665086248348000, 278063735417999700, 1998070962536277000, 290839870185063600,
   2312827828857880000, 305442893716617000, 2663434084812225000, 329075945751345400,
   3198421010321994000]

/-- entries 121 to 143 of `RECF`, Rock4-NG/include/coeffs-rock4 3-1099. -/
def recf11 : List ℤ :=
  [120920833746271700, 146395621197388100, 68863192324294280, 168482159121435300,
   323304383560731800, 187659851492006400, 651317601768839500, 204390516673218600,
   1002021458157551000, 219077033062605000, 1351369448238108000, 232063342961781600,
   1688220571485906000, 243665598245873100, 2008416611727759000, 254275072391409000,
   2313613787046680000, 264679277350121500, 2616749611549993000, 276996746318930900,
   2964076499426887000, 297044076608473100, 3502117812643117000]

/-- entries 144 to 168 of `RECF`, Rock4-NG/include/coeffs-rock4 3-1099. -/
def recf12 : List ℤ :=
  [106703471530265500, 129232971058465400, 69143208609435880, 148781203752584900,
   324800642830443400, 165765259486842000, 654625433613032200, 180588026382055000,
   1007449363462607000, 193601007449095600, 1358990057232774000, 205100792203099500,
   1697855056821405000, 215341668978170300, 2019295372474008000, 224570943019604500,
   2322718220467692000, 233127505651350400, 2612402870437151000, 241720131476552400,
   2904095866946978000, 252164658737485700, 3246308095620147000, 269076443546706400,
   3778240223542354000]

/-- entries 169 to 195 of `RECF`, Rock4-NG/include/coeffs-rock4 3-1099. -/
def recf13 : List ℤ :=
  [94874319392958120, 114944013813898100, 69381258089082580, 132370010526274500,
   326080802016721800, 147518821092481700, 657475535694006700, 160745256047673000,
   1012162270929412000, 172359153177167600, 1365667423922086000, 182621167618344100,
   1706429091716792000, 191749653634565500, 2029443389633356000, 199936227838474800,
   2333350798953319000, 207381103747149900, 2619641661449880000, 214384144076041600,
   2894413776906615000, 221582073629538700, 3175489053704050000, 230527061984990400,
   3512439576972030000, 244901426473894100, 4036179314586852000]

/-- entries 196 to 224 of `RECF`, Rock4-NG/include/coeffs-rock4 3-1099. -/
def recf14 : List ℤ :=
  [84945641976950630, 102943919635107800, 69584069218393540, 118580915888023600,
   327177318427771200, 132181586505524700, 659931316233137200, 144061060140975500,
   1016249390468336000, 154494777068264300, 1371499803680846000, 163714355678015700,
   1713990070155131000, 171912377499522900, 2038574724036485000, 179251437715379800,
   2343593316805466000, 185879877995646900, 2629560717194659000, 191965934337128800,
   2899296316580346000, 197781037382876700, 3160315643000932000, 203902427091471100,
   3432192271881122000, 211672246526975900, 3765294846983478000, 224083344547107500,
   4283514372117345000]

/-- entries 225 to 255 of `RECF`, Rock4-NG/include/coeffs-rock4 3-1099. -/
def recf15 : List ℤ :=
  [76481009530177210, 92708471114948880, 69760549380798600, 106814703969248700,
   328135970871248600, 119089860038884600, 662089636136604800, 129815711444206500,
   1019862089328133000, 139238735464043900, 1376687444923527000, 147566247915147100,
   1720764656800079000, 154970217198948100, 2046849615229637000, 161593735450581700,
   2353135758405889000, 167559820797440400, 2639750061864973000, 172986316496577000,
   2908276346191939000, 178017628226859800, 3162404475076796000, 182898361284113200,
   3410641528662292000, 188141583443353100, 3673520724841440000, 194885293353138000,
   4000529139809629000, 205528700281048400, 4505930922691549000]

/-- entries 256 to 288 of `RECF`, Rock4-NG/include/coeffs-rock4 3-1099. -/
def recf16 : List ℤ :=
  [69238481731587340, 83947029503610060, 69913256317972340, 96739115221112640,
   328968783332102500, 107875575708480500, 663972978861695800, 117610001487414000,
   1023029830546846000, 126164355745487900, 1381259991601194000, 133725408088902400,
   1726770746288135000, 140447996565006500, 2054241214472704000, 146460283767021300,
   2361779701904081000, 151869855128087100, 2649344026216049000, 156771754190047100,
   2918033340368942000, 161262412349642000, 3170079069341164000, 165468887990088100,
   3409811920927984000, 169613666682428600, 3646547307991162000, 174154614508031000,
   3901537483439419000, 180063659717954300, 4223218228522266000, 189288134126836700,
   4717326233521751000]

/-- entries 289 to 323 of `RECF`, Rock4-NG/include/coeffs-rock4 3-1099. -/
def recf17 : List ℤ :=
  [62985884395966360, 76380306266879650, 70046558512658440, 88034539432652930,
   329698284546740600, 98184449503659330, 665629105710648000, 107059562647581700,
   1025827278785117000, 114860876638963500, 1385316612194638000, 121757581089793100,
   1732125747484649000, 127889941244036800, 2060869881923743000, 133373843202473500,
   2369597744170469000, 138305638851269200, 2658180187652428000, 142767443722349800,
   2927507447256686000, 146834395886328900, 3179214676099940000, 150587599897643200,
   3415951393087426000, 154140798439570100, 3642544652079210000, 157696971245003600,
   3868951368176343000, 161664405357509200, 4116861214445555000, 166874819843458500,
   4433331570075596000, 174918872405957000, 4916033800451471000]

/-- entries 324 to 360 of `RECF`, Rock4-NG/include/coeffs-rock4 3-1099. -/
def recf18 : List ℤ :=
  [57543606787518240, 69792062634588570, 70163892059406010, 80453351138434080,
   330342346488570600, 89741851665104520, 667096273500983600, 97866343363940700,
   1028314890330009000, 105009725857242700, 1388938643805943000, 111326000364978300,
   1736928024956524000, 116942862307493600, 2066843246414360000, 121965752340905000,
   2376686083847098000, 126482000084030700, 2666274169278879000, 130564875787794500,
   2936397261253015000, 134278125774233900, 3188429723296673000, 137682540166691700,
   3424305607919373000, 140847881204101800, 3646959159353649000, 143876898913310100,
   3861600014637602000, 146954221648171400, 4078642344326945000, 150441906676300900,
   4319869811400004000, 155049489024761500, 4630491704469774000, 162077505316664000,
   5100139240423402000]

/-- entries 361 to 399 of `RECF`, Rock4-NG/include/coeffs-rock4 3-1099. -/
def recf19 : List ℤ :=
  [52780408115204250, 64024211984769830, 70267493108247040, 73814440325628880,
   330912538670050200, 82346855199241010, 668399064810706900, 89812229395414690,
   1030531116670419000, 96377739233366580, 1392177117208699000, 102184179644446400,
   1741238287384007000, 107348318089548300, 2072226942408981000, 111966562474254800,
   2383105498941010000, 116118641238238200, 2673653866792523000, 119870995841218700,
   2944607083863120000, 123280094055665700, 3197217653056301000, 126396348180366200,
   3433101656487968000, 129270091858833500, 3654364911202174000, 131962515747612500,
   3864151426812009000, 134567121779391800, 4067976665874104000, 137251714369052900,
   4276578990766819000, 140336859283097000, 4511616717492440000, 144428472918499400,
   4816264620225250000, 150594683964103900, 5272614695163532000]

/-- entries 400 to 442 of `RECF`, Rock4-NG/include/coeffs-rock4 3-1099. -/
def recf20 : List ℤ :=
  [44876666656751400, 54449901419107590, 70441302830960860, 62790491880911400,
   331872319200864000, 70063686328477800, 670600262175072200, 76430688622008880,
   1034291291409337000, 82032826810273600, 1397696656221023000, 86989164195004130,
   1748620369064401000, 91398475220195890, 2081495587015637000, 95342326174931630,
   2394220617811718000, 98888125560973540, 2686520584410767000, 102091814877792400,
   2959071488424056000, 105000196536760100, 3213027967445414000, 107653068019435900,
   3449782554868110000, 110085505122250400, 3670882760306343000, 112330924267361300,
   3878099745344409000, 114426083507119500, 4073711108103572000, 116420133017929800,
   4261157327362403000, 118391419183267600, 4446387149497601000, 120478071983217800,
   4640454326093743000, 122930640137746200, 4864269389633110000, 126192772641731400,
   5156669165861498000, 130994348923906500, 5586255185473764000]

/-- entries 443 to 489 of `RECF`, Rock4-NG/include/coeffs-rock4 3-1099. -/
def recf21 : List ℤ :=
  [38629752244039020, 46879450539006550, 70580358580610960, 54070418349642830,
   332643052421025900, 60344111860948480, 672375388545568100, 65838633338328900,
   1037337930420006000, 70675094947774360, 1402191813726617000, 74955548049309350,
   1754665679972444000, 78764669394146120, 2089130635289459000, 82172397189097020,
   2403434536707747000, 85236533997616760, 2697261364777181000, 88005017788608100,
   2971251237465357000, 90517822172291090, 3226519291781493000, 92808550108521640,
   3464394048134897000, 94905841898964210, 3686285665457733000, 96834782718710050,
   3893644369335397000, 98618608052718040, 4088004145802082000, 100281213931129500,
   4271141176574624000, 101851347138016900, 4445422442202590000, 103369962100347200,
   4614490459910935000, 104903154910671000, 4784539901229190000, 106564215289393200,
   4966599824214358000, 108548842073721500, 5180410345089337000, 111184343282724900,
   5460483341177160000, 114978203514048500, 5864065338958527000]

/-- entries 490 to 540 of `RECF`, Rock4-NG/include/coeffs-rock4 3-1099. -/
def recf22 : List ℤ :=
  [33605624197182350, 40788796304990240, 70693290734071060, 47052625422082230,
   333270864741508000, 52519634137568000, 673826276002246100, 57309513157373870,
   1039837553534775000, 61527251775510530, 1405895253957461000, 65261326117530480,
   1759668677811218000, 68585156203244010, 2095479655628776000, 71559390195822450,
   2411135586103733000, 74234159174817890, 2706287495885053000, 76651038849328160,
   2981548371545775000, 78844675923085880, 3238009173107087000, 80844116679868760,
   3476971265301733000, 82673904119616330, 3699801584879876000, 84355026105098000,
   3907862310698117000, 85905820447788940, 4102493117101150000, 87342989136510780,
   4285042785031379000, 88682960934542960, 4456965009415761000, 89943993980692960,
   4620016328614911000, 91149660649260340, 4776628155317611000, 92334739625798460,
   4930576673885005000, 93555053242170980, 5088149715467647000, 94903267926940500,
   5260104590494338000, 96532433649993750, 5464780715474395000, 98686009914849030,
   5732601989067468000, 101722571605311400, 6111363239215825000]

/-- entries 541 to 595 of `RECF`, Rock4-NG/include/coeffs-rock4 3-1099. -/
def recf23 : List ℤ :=
  [29504378254874000, 35815551129416870, 70786201266222950, 41320826432310120,
   333788629888640800, 46127400021185060, 675026170244530000, 50340041285395680,
   1041911190752577000, 54050666742824860, 1408978061674918000, 57336741671464390,
   1763848697593524000, 60262552288004880, 2100805343046851000, 62881205245484170,
   2417622608971423000, 65236601860467080, 2713924596018528000, 67365154516603140,
   2990302271326234000, 69297205828312460, 3247828257866806000, 71058178827999410,
   3487787217481978000, 72669506712604990, 3711526971215219000, 74149395130313720,
   3920379717842592000, 75513472419960110, 4115626674210771000, 76775391084407120,
   4298493831220752000, 77947463139204100, 4470176901244603000, 79041450042847490,
   4631903418970273000, 80069694656045380, 4785052149162398000, 81046891591610250,
   4931367316839517000, 81992958858230270, 5073330960096394000, 82937706044856830,
   5214794128662904000, 83928261365971250, 5362017345344410000, 85040359387973330,
   5525322098044688000, 86394082222703730, 5721561451757253000, 88172162083313200,
   5977434938944347000, 90631896687580380, 6332939739614603000]

/-- entries 596 to 654 of `RECF`, Rock4-NG/include/coeffs-rock4 3-1099. -/
def recf24 : List ℤ :=
  [26112056924602490, 31701010914650170, 70863564196284670, 36577663498417410,
   334220618105427100, 40836618092520300, 676029582486030900, 44570373545387240,
   1043649740346678000, 47860092226058380, 1411570048315963000, 50774179576198110,
   1767374059456163000, 53369404762094870, 2105311844047106000, 55692665975730380,
   2423131187370251000, 57782734121832620, 2720433970782992000, 59671768624219780,
   2997792878733318000, 61386569706745970, 3256265499647623000, 62949590764055150,
   3497123813254361000, 64379751055639990, 3721703830438909000, 65693090297998510,
   3931323996098995000, 66903304038141640, 4127244218331418000, 68022196946226860,
   4310650456887266000, 69060093144738700, 4482657882348953000, 70026250804608260,
   4644331547605672000, 70929345488513170, 4796729107857300000, 71778117329596760,
   4940976831610963000, 72582326892735680, 5078399409574430000, 73354240501712270,
   5210737517163408000, 74110973666336410, 5340506436534539000, 74878156633488520,
   5471575324915496000, 75695509279151510, 5610077596302204000, 76624885062576620,
   5765785117760304000, 77760791577180890, 5954049494922431000, 79241486668549380,
   6198219542319461000, 81254094818417330, 6531839888628567000]

/-- entries 655 to 717 of `RECF`, Rock4-NG/include/coeffs-rock4 3-1099. -/
def recf25 : List ℤ :=
  [23291619039346070, 28279423466665750, 70927678013245730, 32632566538295190,
   334579208784822700, 36435240659418970, 676864066390193300, 39769792081864090,
   1045098632090649000, 42708482801670400, 1413735187729310000, 45312219103617000,
   1770326285691667000, 47631547232781430, 2109095929304028000, 49708224852830180,
   2427770065864133000, 51576773879736980, 2725932360325259000, 53265830472754740,
   3004140385861841000, 54799260072824390, 3263439258620141000, 56197058070041150,
   3505090634425326000, 57476071140868010, 3730421698484556000, 58650574763372010,
   3940742505245702000, 59732738648802960, 4137303052977993000, 60733007810794400,
   4321274134643955000, 61660424488929770, 4493743356584487000, 62522916182340360,
   4655722399143190000, 63327578629467290, 4808165109947856000, 64080991037233410,
   4951999355274510000, 64789616163470510, 5088179499753192000, 65460362699649250,
   5217771724376283000, 66101425182588570, 5342092003559118000, 66723570661827660,
   5462927399000752000, 67342111869733840, 5582886150793852000, 67979882920264150,
   5705940457094262000, 68671573466185800, 5838243594874886000, 69469662076281900,
   5989305413025341000, 70451639722446570, 6173557330297905000, 71726684985342730,
   6412138054673769000, 73436695518132240, 6734212283950197000]

/-- entries 718 to 784 of `RECF`, Rock4-NG/include/coeffs-rock4 3-1099. -/
def recf26 : List ℤ :=
  [20889622225586560, 25365011415383910, 70983120960148560, 29271741644712040,
   334889750719280200, 32685176959168780, 677587934691535100, 35679049393900410,
   1046357814625728000, 38318067723320350, 1415620734408565000, 40656773613935180,
   1772903102475344000, 42740431519344460, 2112406912998520000, 44606435608089290,
   2431839618927255000, 46285700534819580, 2730769378663360000, 47803870684782730,
   3009740811016449000, 49182318919789670, 3269788261694700000, 50438953067977680,
   3512164460435231000, 51588861258361920, 3738189139504120000, 52644827387712920,
   3949165867949340000, 53617744178991600, 4146338301275897000, 54516946879032370,
   4330869551935628000, 55350486991559840, 4503835468466499000, 56125363108851080,
   4666226835980815000, 56847725231366520, 4818958265481784000, 57523070336525310,
   4962883637349025000, 58156450957785660, 5098819947919943000, 58752726043316990,
   5227583713586083000, 59316895627958830, 5350047139508995000, 59854579481046350,
   5467225528673463000, 60372726607244690, 5580413411348073000, 60880678207480900,
   5691395094905580000, 61391749036934350, 5802765872262357000, 61925528902644690,
   5918411775133858000, 62511101147021170, 6044203697962170000, 63191239519939000,
   6188952404877303000, 64027191270390780, 6365612063366765000, 65102557741850100,
   6592545134576846000, 66522678405561330, 6894261807467007000]

/-- entries 785 to 855 of `RECF`, Rock4-NG/include/coeffs-rock4 3-1099. -/
def recf27 : List ℤ :=
  [18840705252732320, 22878651665222690, 71030618331616080, 26404145559240090,
   335156109203722600, 29485048678455290, 678209672007396200, 32187768970226700,
   1047441025101927000, 34570592117479760, 1417245576749319000, 36682647121451780,
   1775127832127863000, 38564706491045650, 2115271336150133000, 40250453251581190,
   2435368006995073000, 41767733822402890, 2734972927884814000, 43139647507216900,
   3014619731636417000, 44385446356643990, 3275333564649527000, 45521261741189540,
   3518359485899692000, 46560685543359200, 3745010840861863000, 47515233975883110,
   3956585819539499000, 48394718437175340, 4154323324012205000, 49207543572411740,
   4339381722015443000, 49960948954196320, 4512831048238278000, 50661207916247430,
   4675653273310193000, 51313795193379580, 4828747738428288000, 51923534222964870,
   4972940502928434000, 52494735385117210, 5108997625078284000, 53031338352756710,
   5237643599692746000, 53537075494855490, 5359587556465524000, 54015679518031240,
   5475561617516223000, 54471168023320920, 5586378279840697000, 54908251285868380,
   5693017116602866000, 55332928030869760, 5796755768842047000, 55753356926146070,
   5899366290511978000, 56181115425315250, 6003405110877628000, 56632971034803000,
   6112631579002907000, 57133263902937070, 6232591473997167000, 57716869518585390,
   6371386281547686000, 58432353088727180, 6540591245646711000, 59344153083217170,
   6756138475691030000, 60531274556716190, 7038679036965546000]

/-- entries 856 to 930 of `RECF`, Rock4-NG/include/coeffs-rock4 3-1099. -/
def recf28 : List ℤ :=
  [17080031756423800, 20741815326225470, 71071548357233960, 23939374734968490,
   335385875573436000, 26734145359557270, 678746631558489000, 29186258684579970,
   1048377783441727000, 31348495260678740, 1418652820405583000, 33265344765111830,
   1777057753498972000, 34973729500029690, 2117760550049606000, 36504151483836010,
   2438439995727389000, 37881827085324860, 2738640090744446000, 39127673812610450,
   3018885114907114000, 40259125390164790, 3280192335266340000, 41290789863099240,
   3523800195135267000, 42234975955008260, 3751016505461964000, 43102112976028120,
   3963134824357808000, 43901086272142840, 4161390116668366000, 44639506271296250,
   4346937216368967000, 45323925619724950, 4520842562952224000, 45960016022172710,
   4684083677796514000, 46552714255467270, 4837553218910148000, 47106345398968500,
   4982065930947042000, 47624730609779090, 5118367810144925000, 48111286804317320,
   5247147588413267000, 48569126497960140, 5369051384586530000, 49001167992206200,
   5484702216816451000, 49410269372498120, 5594727154468603000, 49799404778374680,
   5699796357324364000, 50171908593829270, 5800680268418966000, 50531823008659620,
   5898333966076152000, 50884396912368000, 5994021272105722000, 51236798308793670,
   6089495614023648000, 51599114635072540, 6187259309040364000, 51985715568528450,
   6290926122189227000, 52417018434494860, 6405709220757223000, 52921581450733400,
   6539038212088008000, 53538174847148920, 6701255576222123000, 54316935602785260,
   6906222214439113000, 55317833683144960, 7171434625046844000]

/-- entries 931 to 1011 of `RECF`, Rock4-NG/include/coeffs-rock4 3-1099. -/
def recf29 : List ℤ :=
  [14868212226108600, 18057105706078490, 71123154268652640, 20842266786427580,
   335675885184952500, 23277084038774070, 679425220731478400, 25413826282816580,
   1049563283476954000, 27298376653450000, 1420436509870845000, 28969411943508300,
   1779508117794810000, 30459030287057650, 2120926886975343000, 31793748026978150,
   2442355417695174000, 32995486134273950, 2743324022628396000, 34082428237170340,
   3024345386679296000, 35069729402148460, 3286426953033458000, 35970088427570470,
   3530798855126308000, 36794205547682860, 3758761896368122000, 37551147504815090,
   3971603743636597000, 38248639054972560, 4170554403005484000, 38893296510400800,
   4356764468047173000, 39490815754345110, 4531296561693286000, 40046124539856090,
   4695124355979618000, 40563506825933410, 4849135873526999000, 41046705356035630,
   4994139167345992000, 41499007581742900, 5130869342770428000, 41923319329968590,
   5259996460201358000, 42322230283779520, 5382134282701106000, 42698075403931160,
   5497850203277219000, 43052996904485720, 5607677074343013000, 43389012393074180,
   5712128128876574000, 43708096416819700, 5811716792241682000, 44012285080488840,
   5906984004679025000, 44303816812332680, 5998536784140458000, 44585326916840850,
   6087103236556506000, 44860119315330100, 6173611125584528000, 45132545491695070,
   6259299431307765000, 45408526850669050, 6345874840856066000, 45696259138300920,
   6435727138959286000, 46007128872861720, 6532217324580875000, 46356837082287300,
   6640046346388578000, 46766638495659390, 6765693546213282000, 47264424100188830,
   6917869917669843000, 47885057067707040, 7107844374668939000, 48668914490547130,
   7349355366345482000]

/-- entries 1012 to 1098 of `RECF`, Rock4-NG/include/coeffs-rock4 3-1099. -/
def recf30 : List ℤ :=
  [13060174637716050, 15862223018237580, 71165482545845380, 18309907930669820,
   335914017356767100, 20450061394988530, 679983124627133500, 22328542782356910,
   1050539332243899000, 23985611788398650, 1421907384347976000, 25455205790581780,
   1781532257250431000, 26765489654851820, 2123547392925449000, 27939730158298980,
   2445602455405584000, 28997161523871360, 2747216803842120000, 29953738405465070,
   3028893817005614000, 30822757944271970, 3291633014860622000, 31615362058102210,
   3536657782024154000, 32340939160599930, 3765263180987164000, 33007444565463940,
   3978732008486888000, 33621656290487660, 4178290151302299000, 34189379929808680,
   4365084718269216000, 34715613465218510, 4540175351893392000, 35204680555859710,
   4704533078136206000, 35660338991334320, 4859043358175601000, 36085869558920090,
   5004511375120722000, 36484149491097870, 5141668418466542000, 36857713863012190,
   5271178746069831000, 37208807754080190, 5393646641028532000, 37539431643759190,
   5509623620882760000, 37851382365184510, 5619615952404358000, 38146291995176840,
   5724092815186362000, 38425667334853000, 5823495672538734000, 38690933168873550,
   5918249678197957000, 38943483337953440, 6008778302882714000, 39184744889625360,
   6095522840022940000, 39416262267232300, 6178969082896937000, 39639810729253270,
   6259684294183701000, 39857550980697920, 6338368642128979000, 40072240217759360,
   6415926549632834000, 40287517963946260, 6493564801329609000, 40508287013925200,
   6572925493481835000, 40741207892045740, 6656262309872097000, 40995314320758990,
   6746666723127143000, 41282727975824760, 6848343774930394000, 41619388301627950,
   6966920189552035000, 42025597436680190, 7109733150553114000, 42525995141371850,
   7285986885865631000, 43148339017240700, 7506571441023483000]

/-- entries 1099 to 1191 of `RECF`, Rock4-NG/include/coeffs-rock4 3-1099. -/
def recf31 : List ℤ :=
  [11563430007553870, 14045042579574410, 71200614400913470, 16213105455403720,
   336111841478886900, 18109037123251190, 680447074531806800, 19773402888143100,
   1051351961493040000, 21241817030711030, 1423133589772792000, 22544301659315550,
   1783222117476625000, 23705772359111650, 2125738546054181000, 24746811497312460,
   2448322054772776000, 25684433874295200, 2750483122588739000, 26532752893281160,
   3032717571879833000, 27303530933667960, 3296018469202774000, 28006623776638220,
   3541603675689819000, 28650336053623010, 3770763523850850000, 29241704745320690,
   3984776764701321000, 29786725513044090, 4184865833334669000, 30290533947567560,
   4372174902153924000, 30757551341408990, 4547761117084665000, 31191602519967990,
   4712593365381469000, 31596011613542950, 4867555224942895000, 31973680362900390,
   5013450107382228000, 32327152560123420, 5151007425806035000, 32658667473989780,
   5280889117936882000, 32970204546537080, 5403696166527656000, 33263521238232800,
   5519974959907685000, 33540185617854080, 5630223474016425000, 33801605124257990,
   5734897364461758000, 34049052864032030, 5834416154573392000, 34283692853197780,
   5929169809805325000, 34506605772396040, 6019526114875673000, 34718817101063940,
   6105839432336188000, 34921329952689780, 6188461635645998000, 35115165582944480,
   6267756293962286000, 35301415421808360, 6344117559126738000, 35481309621967750,
   6417995687010485000, 35656308528512130, 6489931729721409000, 35828225108574490,
   6560604660107811000, 35999388047777340, 6630894993854867000, 36172856460939280,
   6701969730666828000, 36352696990362370, 6775393849143700000, 36544330554248820,
   6853273049469121000, 36754945701824330, 6938429782822217000, 36993952735597100,
   7034607793792287000, 37273409224144180, 7146686166221226000, 37608273887522400,
   7280857713064263000, 38016237821667650, 7444684055765861000, 38516756088890730,
   7646881040691488000]

/-- entries 1192 to 1290 of `RECF`, Rock4-NG/include/coeffs-rock4 3-1099. -/
def recf32 : List ℤ :=
  [10310100015341180, 12523253112460440, 71230103696173540, 14456993770701090,
   336278017493006600, 16148217024538330, 680837138750437400, 17633063162970530,
   1052035845952689000, 18943263215270650, 1424166653656900000, 20105566297044880,
   1784647514196653000, 21142171755926180, 2127589198858749000, 22071417978049570,
   2450622274788554000, 22908464532235800, 2753249929535957000, 23665885743294180,
   3035961777269406000, 24354161116367740, 3299745572968218000, 24982071368284190,
   3545814616992661000, 25557015177851040, 3775455317600242000, 26085261822589460,
   3989943047683779000, 26572152870100620, 4190497337604562000, 27022263689776430,
   4378259868084232000, 27439533340554680, 4554285653702798000, 27827369543354060,
   4719541760694932000, 28188733969843370, 4874910203110806000, 28526211924365320,
   5021193021763500000, 28842069603649130, 5159118365654818000, 29138301434543040,
   5289346889752990000, 29416669468025400, 5412478085861132000, 29678736412811160,
   5529056351590590000, 29925893597417920, 5639576722484761000, 30159384936509940,
   5744490272864715000, 30380327832807710, 5844209250482745000, 30589731862166360,
   5939112061179864000, 30788516063470560, 6029548271815797000, 30977525687804610,
   6115843860580712000, 31157549357926240, 6198307020754208000, 31329337758252340,
   6277234924693847000, 31493625229884060, 6352921987752219000, 31651156000294730,
   6425670346395947000, 31802717250339770, 6495803491305275000, 31949181827184920,
   6563684284758635000, 32091564155391860, 6629738949529550000, 32231093758452040,
   6694489043071365000, 32369311701798880, 6758593906225592000, 32508196016416280,
   6822906541085610000, 32650322362920070, 6888546193197504000, 32799065089049620,
   6956990815908923000, 32958840060987410, 7030191567938097000, 33135381956660390,
   7110708644516797000, 33336031692051940, 7201861618009667000, 33569979890541860,
   7307875953685270000, 33848365717383810, 7433987921789071000, 34184067314921940,
   7586440923075350000, 34590953908891030, 7772269308571649000]

/-- entries 1291 to 1395 of `RECF`, Rock4-NG/include/coeffs-rock4 3-1099. -/
def recf33 : List ℤ :=
  [9250365544833106, 11236429570476390, 71255079547874480, 12971917290223960,
   336418848522263100, 14489905781486820, 681167951771598600, 15822799473628130,
   1052616326176499000, 16999050630564580, 1425044323407192000, 18042644793858070,
   1785859728026249000, 18973487848651080, 2129164803933608000, 19808023509070450,
   2452582966079122000, 20559844950083540, 2755611351402767000, 21240227070178780,
   3038734422531415000, 21858566281277360, 3302935522984499000, 22422735662750120,
   3549424157624133000, 22939369023684780, 3779483458160068000, 23414087471042210,
   3994385963604223000, 23851680290196290, 4195348752453025000, 24256249790600790,
   4383511386477932000, 24631327787507250, 4559927053277270000, 24979969733772560,
   4725561248235422000, 25304831190203930, 4881294636884907000, 25608230285441990,
   5027928098555960000, 25892199013431810, 5166188766435952000, 26158525598435300,
   5296736371549673000, 26408789683002980, 5420169498193963000, 26644391730730120,
   5537031542330662000, 26866577757988380, 5647816278134981000, 27076460298437790,
   5752973009271112000, 27275036347300790, 5852911327970665000, 27463202919445190,
   5948005537838443000, 27641770779840350, 6038598823049000000, 27811476863181780,
   6125007272671443000, 27972995890012560, 6207523898606691000, 28126951710205650,
   6286422822922934000, 28273928963892400, 6361963859104227000, 28414485749414460,
   6434397776056558000, 28549168133990880, 6503972618317222000, 28678527543313860,
   6570941566018360000, 28803142329617170, 6635572959395679000, 28923645151132820,
   6698163290468718000, 29040758201676420, 6759054182903871000, 29155338797951950,
   6818654639717365000, 29268438329816200, 6877470127613112000, 29381378023228350,
   6936140357564597000, 29495845188251270, 6995487849121559000, 29614013306922620,
   7056579402322907000, 29738687895302390, 7120802208967371000, 29873476616115340,
   7189955103325421000, 30022975182601880, 7266352712733982000, 30192948183520100,
   7352935018498777000, 30390463785402130, 7453365750657752000, 30623911799645710,
   7572088751614536000, 30902797631556390, 7714291475982730000, 31237170042937590,
   7885701646946724000]

/-- entries 1396 to 1506 of `RECF`, Rock4-NG/include/coeffs-rock4 3-1099. -/
def recf34 : List ℤ :=
  [8345540180276686, 10137640093880370, 71276458816655730, 11703764161966460,
   336539464450779600, 13073734428806870, 681451455619044900, 14276769570226420,
   1053114143093287000, 15338525666395990, 1425797600037836000, 16280631383283610,
   1786901034175123000, 17121036664682250, 2130519545476170000, 17874569413711290,
   2454270534974888000, 18553486989442820, 2757646057348834000, 19167956173749520,
   3041126250272165000, 19726449768002540, 3305690752776119000, 20236066875187860,
   3552545878917464000, 20702789075606040, 3782971999927905000, 21131684755442620,
   3998239259305988000, 21527072233677830, 4199562653334393000, 21892650391226850,
   4388079933534241000, 22231603719236810, 4564842715530542000, 22546687209232720,
   4730815132757386000, 22840295312076220, 4886876674022503000, 23114518256539300,
   5033827203854437000, 23371188293237290, 5172392978550550000, 23611917870809180,
   5303232962672809000, 23838131321135770, 5426945049786824000, 24051091299351290,
   5544071973678512000, 24251920969512060, 5655106807683926000, 24441622730642630,
   5760498017810869000, 24621094127451460, 5860654077087351000, 24791141475655340,
   5955947674756841000, 24952491646582440, 6046719571441241000, 25105802394628930,
   6133282164799120000, 25251671570992610, 6215922842757839000, 25390645546063230,
   6294907215579771000, 25523227160284210, 6370482335961646000, 25649883539674430,
   6442880040095037000, 25771054148989260, 6512320574262512000, 25887159515144040,
   6579016713460415000, 25998611139329350, 6643178633382018000, 26105823232203810,
   6705019867831056000, 26209227056899860, 6764764773431096000, 26309288852932760,
   6822658035386095000, 26406532541723550, 6878976884216645000, 26501568677026210,
   6934046853762110000, 26595131385464380, 6988262090327138000, 26688125306756450,
   7042111407137301000, 26781684715351810, 7096211435207562000, 26877246946221470,
   7151348288632315000, 26976641714578510, 7208529025232651000, 27082196510654150,
   7269043646867752000, 27196855341253550, 7334537129952923000, 27324302781578710,
   7407088522578688000, 27469076454513100, 7489289818382320000, 27636637547051040,
   7584310317783358000, 27833350435304710, 7695921849731747000, 28066300863972740,
   7828446706602086000, 28342864247392160, 7986575762535248000]

/-- entries 1507 to 1623 of `RECF`, Rock4-NG/include/coeffs-rock4 3-1099. -/
def recf35 : List ℤ :=
  [7568003719318281, 9193373558789463, 71294832557034610, 10613891900566370,
   336643171574547200, 11856587208125060, 681695345086276700, 12947943503159170,
   1053542656584974000, 13911216453682220, 1426446444034435000, 14766011397402840,
   1787798638427945000, 15528599145516200, 2131688271751633000, 16212420482908840,
   2455727658693272000, 16828586041680910, 2759404560655418000, 17386311368504220,
   3043195464558018000, 17893276434148030, 3308076883028777000, 18355915971897660,
   3555252435875009000, 18779651706936600, 3786000160301540000, 19169077587367380,
   4001588169674569000, 19528107665765430, 4203229689645817000, 19860094520689250,
   4392060925299616000, 20167924487942890, 4569132141578328000, 20454094616931570,
   4735406293653057000, 20720775183457420, 4891761844801786000, 20969860741481790,
   5038997769424400000, 21203012038784960, 5177839552843484000, 21421690614337920,
   5308945491240521000, 21627187504555280, 5432912893815535000, 21820647184407400,
   5550283971155782000, 22003087636724220, 5661551304354498000, 22175417262976870,
   5767162856210821000, 22338449209322150, 5867526525797927000, 22492913573689380,
   5963014271336025000, 22639467876433120, 6053965840290423000, 22778706113593560,
   6140692154201157000, 22911166664496410, 6223478401763524000, 23037339291770610,
   6302586899076299000, 23157671450224330, 6378259782215101000, 23272574110493530,
   6450721605572670000, 23382427303696260, 6520181930839076000, 23487585604799080,
   6586838007193958000, 23588383795875910, 6650877664469207000, 23685142987256320,
   6712482569089239000, 23778177526508400, 6771832029067320000, 23867803094398920,
   6829107580966474000, 23954346475641890, 6884498650357838000, 24038157602255850,
   6938209649667989000, 24119624599362240, 6990468964641346000, 24199192715189650,
   7041540382931724000, 24277388181379310, 7091737632918418000, 24354848208919550,
   7141442820039481000, 24432358444277400, 7191129655073966000, 24510899225576230,
   7241392431779231000, 24591701779433260, 7292981672564718000, 24676314903675860,
   7346847122783368000, 24766681406341810, 7404188178940524000, 24865221202589600,
   7466510642206331000, 24974913953937810, 7535686551625321000, 25099367832545730,
   7614010329283727000, 25242851901897210, 7704239097236394000, 25410257853208410,
   7809597539113882000, 25606944131035880, 7933718506147267000, 25838406503781800,
   8080481691101191000]

/-- entries 1624 to 1748 of `RECF`, Rock4-NG/include/coeffs-rock4 3-1099. -/
def recf36 : List ℤ :=
  [6694334606038313, 8132301052210061, 71315357070873960, 9389134630471259,
   336759069680729100, 10488728770088530, 681968043849258500, 11454497987244690,
   1054022066039507000, 12307003422756830, 1427172823544694000, 13063579118907830,
   1788804222099017000, 13738610968134210, 2132998613259399000, 14343982658699490,
   2457362721216975000, 14889517602231150, 2761379595225904000, 15383363595263580,
   3045521719476219000, 15832310690033800, 3310762180672609000, 16242047912597030,
   3558301646036297000, 16617368604720970, 3789415592809941000, 16962334211239230,
   4005369903859170000, 17280405043188920, 4207375854097784000, 17574544991923540,
   4396567938240963000, 17847305737611860, 4573994919708219000, 18100894798049550,
   4740618435452991000, 18337230805265570, 4897315792782505000, 18557988646821840,
   5044884954562696000, 18764636527129770, 5184050523373731000, 18958466555501700,
   5315470026926565000, 19140620121924120, 5439740105721099000, 19312109054758030,
   5557402385626821000, 19473833348197450, 5668948928266588000, 19626596087177580,
   5774827218315940000, 19771116072763410, 5875444685962498000, 19908038553738650,
   5971172785245406000, 20037944394021250, 6062350661340985000, 20161357946041950,
   6149288446198813000, 20278753853876740, 6232270224896007000, 20390562974148460,
   6311556716380911000, 20497177575618670, 6387387713071162000, 20598955958630330,
   6459984324868040000, 20696226622222780, 6529551075171532000, 20789292099272770,
   6596277899957604000, 20878432578180110, 6660342106414446000, 20963909433451130,
   6721910355553485000, 21045968797328860, 6781140744196829000, 21124845320901430,
   6838185076461196000, 21200766296628630, 6893191434072465000, 21273956345874250,
   6946307179415828000, 21344642915837330, 6997682556089891000, 21413062881217800,
   7047475089834524000, 21479470607722560, 7095855038862376000, 21544147907054990,
   7143012197281974000, 21607416394742060, 7189164418059094000, 21669652848595450,
   7234568290808686000, 21731308247350370, 7279532479715103000, 21792931228292630,
   7324434288116620000, 21855196708184650, 7369740050569291000, 21918940311239360,
   7416029929155098000, 21985198957681680, 7464027556828451000, 22055257358993460,
   7514634645503588000, 22130699056882670, 7568970038541067000, 22213458785076910,
   7628411564127120000, 22305870031696850, 7694637214568848000, 22410697459585580,
   7769659387231029000, 22531138208868430, 7855841979737009000, 22670769467342080,
   7955885073370143000, 22833413471081460, 8072756369544127000, 23022888360340360,
   8209544135936097000]

/-- entries 1749 to 1881 of `RECF`, Rock4-NG/include/coeffs-rock4 3-1099. -/
def recf37 : List ℤ :=
  [5959608869219697, 7239930216451945, 71332799841051040, 8359051841424598,
   336857609991334500, 9338233700778646, 682200021633042700, 10198311424213480,
   1054430127732599000, 10957582161952700, 1427791507549994000, 11631471529149220,
   1789661337538298000, 12232781636961140, 2134116378937676000, 12772087856003860,
   2458758686973440000, 13258132059116490, 2763067382696023000, 13698164927849420,
   3047511618662466000, 14098228832471750, 3313061633300986000, 14463386296169700,
   3560915640558304000, 14797902740404000, 3792346990474591000, 15105392250343150,
   4008619710852165000, 15388933950935060, 4210943451273732000, 15651165200658160,
   4400451277298846000, 15894356536025770, 4578190692609130000, 16120472234342590,
   4745122222302962000, 16331219509297190, 4902122192180130000, 16528088686001870,
   5049987699443599000, 16712386184492120, 5189442584592429000, 16885261741402610,
   5321143706133679000, 17047730991757600, 5445687118458739000, 17200694295248610,
   5563613934916154000, 17344952507505280, 5675415768232118000, 17481220254060670,
   5781539706502274000, 17610137153371000, 5882392821853880000, 17732277348096910,
   5978346230971775000, 17848157635383460, 6069738738486110000, 17958244432918540,
   6156880099806809000, 18062959774943850, 6240053941930317000, 18162686498744270,
   6319520380671680000, 18257772755638910, 6395518371737207000, 18348535959777160,
   6468267831733790000, 18435266272090350, 6537971564070679000, 18518229704824220,
   6604817024077319000, 18597670923660300, 6668977957794100000, 18673815819188300,
   6730615950017611000, 18746873917237290, 6789881919521960000, 18817040698263900,
   6846917603173716000, 18884499899711180, 6901857076183885000, 18949425882181850,
   6954828363313554000, 19011986150709210, 7005955205839351000, 19072344136742050,
   7055359061912126000, 19130662365135660, 7103161434075709000, 19187106153932930,
   7149486637645913000, 19241848023445700, 7194465147858177000, 19295073025335660,
   7238237692546146000, 19346985241854060, 7280960290730413000, 19397815749136190,
   7322810475484290000, 19447832384048990, 7363994980480986000, 19497351696760310,
   7404759210790995000, 19546753502267500, 7445398854214426000, 19596498448845420,
   7486274009877383000, 19647148975773840, 7527826199581922000, 19699393899322440,
   7570598558183508000, 19754076588588210, 7615259331570643000, 19812226190862920,
   7662628484770114000, 19875090531195380, 7713706654164001000, 19944168008953640,
   7769704756416124000, 20021233905001170, 7832071162571111000, 20108353898537120,
   7902511335384258000, 20207874318239910, 7982992156041412000, 20322375081561900,
   8075719965967809000, 20454568339731200, 8183078136932541000, 20607125306903980,
   8307507916355182000]

/-- entries 1882 to 2022 of `RECF`, Rock4-NG/include/coeffs-rock4 3-1099. -/
def recf38 : List ℤ :=
  [5338928457208802, 6486041055927330, 71347571453356370, 7488783022520046,
   336941091142763100, 8366191792139075, 682396632887507700, 9136926200367255,
   1054776147161770000, 9817372289705744, 1428316413133060000, 10421344674816780,
   1790388973189992000, 10960308511951360, 2135065916571426000, 11443734759173490,
   2459945403613866000, 11879452325471930, 2764503284138904000, 12273954622375200,
   3049205940601908000, 12632652903885870, 3315021246228428000, 12960080877026520,
   3563145379544189000, 13260058369269100, 3794849926333959000, 13535821877983110,
   4011397375442878000, 13790128799248760, 4213996026736057000, 14025340894658430,
   4403777756781442000, 14243491413957220, 4581789018294929000, 14446339337144470,
   4748989405223802000, 14635413435839080, 4906254417290438000, 14812048255494610,
   5054380418632013000, 14977413656489680, 5194090599684319000, 15132539194495960,
   5326041243428160000, 15278334344850450, 5450827895910497000, 15415605362851420,
   5568991222679660000, 15545069407161150, 5681022442899654000, 15667366425512770,
   5787368298952323000, 15783069202075530, 5888435558143096000, 15892691887607020,
   5984595065104622000, 15996697271966560, 6076185375122531000, 16095503009925780,
   6163516003945891000, 16189486972636110, 6246870331241742000, 16278991866421470,
   6326508194315295000, 16364329236097360, 6402668207058440000, 16445782950503020,
   6475569836949800000, 16523612252402630, 6545415270716048000, 16598054442624480,
   6612391097238539000, 16669327258707200, 6676669834625878000, 16737631000994160,
   6738411327196651000, 16803150453762600, 6797764037527307000, 16866056645388300,
   6854866258810527000, 16926508489607190, 6909847273635962000, 16984654349586820,
   6962828487057690000, 17040633567772710, 7013924564580136000, 17094578007391100,
   7063244609630221000, 17146613656187820, 7110893420369401000, 17196862349624500,
   7156972872545727000, 17245443679539080, 7201583483730915000, 17292477165430030,
   7244826224989144000, 17338084779264330, 7286804659046311000, 17382393931214690,
   7327627499609471000, 17425541043060600, 7367411704788124000, 17467675857964860,
   7406286238588718000, 17508966659363750, 7444396657879347000, 17549606596466050,
   7481910707203003000, 17589821336857550, 7519025128611727000, 17629878283622120,
   7555973915123056000, 17670097598064710, 7593038249053531000, 17710865248209750,
   7630558361569231000, 17752648240379910, 7668947513550588000, 17796012060671780,
   7708708209501843000, 17841640118612420, 7750450585439046000, 17890354597537300,
   7794912616154926000, 17943137513429730, 7842981311142257000, 18001149896641620,
   7895713343902400000, 18065745777131460, 7954352514919308000, 18138476051917530,
   8020340030828954000, 18221075421312730, 8095311799649906000, 18315423668276480,
   8181074940047334000, 18423471203934100, 8279553875468303000, 18547119010109080,
   8392695503623823000]

/-- entries 2023 to 2173 of `RECF`, Rock4-NG/include/coeffs-rock4 3-1099. -/
def recf39 : List ℤ :=
  [4691372119147557, 5699474625461373, 71362967928492240, 6580754336890405,
   337028133853528400, 7351932064547251, 682601714420596800, 8029397345236971,
   1055137237879695000, 8627543786402343, 1428864460309730000, 9158506408206921,
   1791149115084724000, 9632356479495138, 2136058483079311000, 10057413522352230,
   2461186723532833000, 10440554622249910, 2766006332016539000, 10787483702268130,
   3050980855476346000, 11102954063194660, 3317075749743232000, 11390948122157250,
   3565485115490737000, 11654821187153450, 3797478738863422000, 11897416140170510,
   4014317539275095000, 12121154999344430, 4217208439626945000, 12328112242778480,
   4407282102151493000, 12520073774703890, 4585583904118685000, 12698584576515800,
   4753072483903950000, 12864987414288140, 4910622490186240000, 13020454448890130,
   5059029528099535000, 13166013187619730, 5199016110853500000, 13302567902113120,
   5331237917441728000, 13430917395112450, 5456289955944984000, 13551769811716790,
   5574712413729396000, 13665755046004360, 5686996086005114000, 13773435181450960,
   5793587340271479000, 13875313315815600, 5894892612975623000, 13971841052384130,
   5991282456659598000, 14063424885303900, 6083095167442896000, 14150431663902840,
   6170640027934311000, 14233193286847930, 6254200202131955000, 14312010749837810,
   6334035318149531000, 14387157648769400, 6410383772701038000, 14458883222835290,
   6483464788808477000, 14527415007923280, 6553480255553266000, 14592961159327300,
   6620616376107076000, 14655712493617090, 6685045147893643000, 14715844292148830,
   6746925696634154000, 14773517902820030, 6806405484266425000, 14828882172042350,
   6863621409335069000, 14882074735347210, 6918700817451654000, 14933223192421840,
   6971762438844605000, 14982446190608220, 7022917269886535000, 15029854439927990,
   7072269415837240000, 15075551682498400, 7119916912919050000, 15119635639777900,
   7165952549304837000, 15162198962450110, 7210464706718194000, 15203330209969400,
   7253538247205134000, 15243114889915860, 7295255473336399000, 15281636591425060,
   7335697194752111000, 15318978252162040, 7374943939689232000, 15355223604694150,
   7413077357064543000, 15390458855765990, 7450181862940887000, 15424774660936390,
   7486346594874230000, 15458268467270790, 7521667748753935000, 15491047308126990,
   7556251385226099000, 15523231146132470, 7590216806350385000, 15554956872467400,
   7623700617184821000, 15586383081206710, 7656861600411088000, 15617695744540040,
   7689886543012415000, 15649114914700150, 7722997159327905000, 15680902566067480,
   7756458249739051000, 15713371658281470, 7790587211550291000, 15746896436922690,
   7825764967678216000, 15781923876671050, 7862448284470696000, 15818985991852980,
   7901183291700260000, 15858712464758730, 7942619768635446000, 15901842643113820,
   7987525387422443000, 15949235405744540, 8036798573342322000, 16001874672322150,
   8091477920349469000, 16060867452053570, 8152745179862013000, 16127430361124520,
   8221917759509073000, 16202859666411790, 8300425555166407000, 16288479460125760,
   8389766067695471000, 16385563043382040, 8491431596995497000]

/-- entries 2174 to 2334 of `RECF`, Rock4-NG/include/coeffs-rock4 3-1099. -/
def recf40 : List ℤ :=
  [4152983993727092, 5045486166497230, 71375845166763770, 5825747502812775,
   337100958255923100, 6508564339714855, 682773361622891100, 7108440797559781,
   1055439591076286000, 7638115008710665, 1429323580617065000, 8108326421179145,
   1791786256178479000, 8527988118498596, 2136890926697665000, 8904462894848839,
   2462228452780043000, 9243836974156776, 2767268570137912000, 9551158310881699,
   3052472497196298000, 9830633537396636, 3318803708195339000, 10085787034871420,
   3567454603219721000, 10319588177015200, 3799693497349148000, 10534552828181120,
   4016780028151404000, 10732824379291970, 4219919994202545000, 10916238642538860,
   4410243065866673000, 11086376039200620, 4588793741064279000, 11244603773222580,
   4756529875379346000, 11392110089443950, 4914325418394411000, 11529932250321000,
   5062975349402129000, 11658979504614690, 5203201620487163000, 11780052043479230,
   5335659407189512000, 11893856725054940, 5460943265934672000, 12001020183203240,
   5579592979271204000, 12102099807919630, 5692098980166754000, 12197592985417840,
   5798907312704116000, 12287944908201030, 5900424125337194000, 12373555204545660,
   5997019714820297000, 12454783588868770, 6089032150489527000, 12531954696503590,
   6176770513802826000, 12605362236241420, 6260517789476358000, 12675272569905410,
   6340533443783142000, 12741927808896010, 6417055723602078000, 12805548502081620,
   6490303707240170000, 12866335976821260, 6560479135277237000, 12924474384695510,
   6627768046927827000, 12980132495215330, 6692342244811716000, 13033465274008840,
   6754360608644642000, 13084615276465370, 6813970276241349000, 13133713883319510,
   6871307708378881000, 13180882401008100, 6926499652502783000, 13226233046694880,
   6979664018971263000, 13269869835523370, 7030910682519399000, 13311889385849190,
   7080342220886106000, 13352381656858980, 7128054602082953000, 13391430632062450,
   7174137831602817000, 13429114961620300, 7218676570980016000, 13465508576331210,
   7261750739540748000, 13500681286342780, 7303436111948426000, 13534699378285200,
   7343804925285762000, 13567626225569620, 7382926510963945000, 13599522928073900,
   7420867968756576000, 13630448999391340, 7457694902776256000, 13660463122281740,
   7493472242304510000, 13689623995981780, 7528265174113487000, 13717991302639300,
   7562140217340938000, 13745626824362010, 7595166477149035000, 13772595747215660,
   7627417119340626000, 13798968193928270, 7658971114809663000, 13824821032939080,
   7689915310079312000, 13850240017539470, 7720346888027838000, 13875322314772700,
   7750376290830836000, 13900179488800560, 7780130684490018000, 13924941006519110,
   7809758049987551000, 13949758332644660, 7839431988406547000, 13974809674821310,
   7869357323732872000, 14000305422943730, 7899776573739077000, 14026494295811760,
   7930977330965135000, 14053670155575280, 7963300544867956000, 14082179367179370,
   7997149612640727000, 14112428454925770, 8033000057004371000, 14144891628252360,
   8071409378596117000, 14180117500452480, 8113026400715047000, 14218733996725470,
   8158599058260445000, 14261450039954680, 8208979110240450000, 14309052131004050,
   8265121682023010000, 14362393455377630, 8328076907174899000, 14422372751464300,
   8398970330439564000, 14489900038111900, 8478968323160648000, 14565846668330310,
   8569224819892680000]

/-- entries 2335 to 2505 of `RECF`, Rock4-NG/include/coeffs-rock4 3-1099. -/
def recf41 : List ℤ :=
  [3704312646343119, 4500459652486567, 71386507481154110, 5196512293102546,
   337161272739927700, 5805664280060180, 682915566853394700, 6340849446568049,
   1055690170651003000, 6813427081724704, 1429704232383565000, 7232974239492588,
   1792314731911011000, 7607439326118729, 2137581723047245000, 7943388257980795,
   2463093367632228000, 8246248539513289, 2768317147355182000, 8520521766292996,
   3053712382217758000, 8769959255269664, 3320240933589542000, 8997703900142133,
   3569093819512950000, 9206403645220593, 3801538161111002000, 9398302000432456,
   4018832556603875000, 9575310308788060, 4222181893493448000, 9739065619456522,
   4412715038513685000, 9890977229041295, 4591475776827830000, 10032264292254170,
   4759421328870969000, 10163986373719450, 4917425076000317000, 10287068397938180,
   5066281487544273000, 10402321133070330, 5206712056814181000, 10510458096251450,
   5339371545956020000, 10612109577022220, 5464854138565951000, 10707834327889090,
   5583699280903157000, 10798129356792480, 5696397102784545000, 10883438167485560,
   5803393375366303000, 10964157724550890, 5905094001856708000, 11040644365475610,
   6001869059172129000, 11113218839433270, 6094056420120871000, 11182170618571350,
   6181964990928702000, 11247761600688790, 6265877600346048000, 11310229300686760,
   6346053575793632000, 11369789610920680, 6422731040006305000, 11426639196673030,
   6496128959041625000, 11480957581707840, 6566448969707471000, 11532908969717960,
   6633877011656901000, 11582643840013100, 6698584786727629000, 11630300349688920,
   6760731065636836000, 11676005569505600, 6820462859911613000, 11719876576582220,
   6877916474950851000, 11762021423620380, 6933218458373045000, 11802540001576540,
   6986486456296808000, 11841524810407730, 7037829988914664000, 11879061650638260,
   7087351155643580000, 11915230246973380, 7135145279256490000, 11950104813970030,
   7181301497708876000, 11983754572827970, 7225903311867283000, 12016244227657850,
   7269029097019594000, 12047634409097060, 7310752585900764000, 12077982092866420,
   7351143331006847000, 12107341000784240, 7390267154202931000, 12135761991878210,
   7428186592069160000, 12163293451563130, 7464961346090013000, 12189981687393660,
   7500648747695434000, 12215871340666250, 7535304249333266000, 12241005824151150,
   7568981954218305000, 12265427797501370, 7601735199195562000, 12289179693429300,
   7633617207306558000, 12312304309583900, 7664681829190014000, 12334845483214350,
   7694984395410563000, 12356848868175940, 7724582705209949000, 12378362836609780,
   7753538181016055000, 12399439530670190, 7781917222296842000, 12420136092901380,
   7809792796931293000, 12440516107129730, 7837246313034256000, 12460651284793560,
   7864369818849385000, 12480623434088900, 7891268582478557000, 12500526750572490,
   7918064106168962000, 12520470467051400, 7944897630608011000, 12540581896427810,
   7971934181681546000, 12561009891859910, 7999367203284967000, 12581928731671620,
   8027423802037812000, 12603542408580180, 8056370599049799000, 12626089259723720,
   8086520134810325000, 12649846810345160, 8118237698928188000, 12675136613634940,
   8151948348470072000, 12702328745624300, 8188143727609828000, 12731845451474580,
   8227388097836817000, 12764163235426090, 8270322725064919000, 12799812445202950,
   8317667447053557000, 12839373139215670, 8370217873957335000, 12883465777387650,
   8428836291187909000, 12932735107465420, 8494434005718798000, 12987825625968340,
   8567942719004841000, 13049347307861030, 8650272688993226000]

/-- entries 2506 to 2688 of `RECF`, Rock4-NG/include/coeffs-rock4 3-1099. -/
def recf42 : List ℤ :=
  [3247324487808653, 3945315229438140, 71397675329651160, 4555578699667749,
   337224463725462400, 5089677216150194, 683064600032041200, 5558945983563953,
   1055952873791690000, 5973340508520150, 1430103457525390000, 6341254407194093,
   1792869234600663000, 6669653938797302, 2138306885390802000, 6964293711881412,
   2464001780084456000, 7229930587138452, 2769419073380583000, 7470509916283250,
   3055016129403092000, 7689319468807855, 3321753151236530000, 7889113759410095,
   3570819738779806000, 8072213501811222, 3803481790268297000, 8240584940970029,
   4020996841123463000, 8395903192560990, 4224568848461668000, 8539602966613761,
   4415325859147346000, 8672919359416600, 4594310931563854000, 8796920818161035,
   4762480638503880000, 8912535918781442, 4920707781580621000, 9020575233992923,
   5069786309167420000, 9121749286872399, 5210437244980383000, 9216683368023415,
   5343314926832955000, 9305929826843983, 5469013154214589000, 9389978318087510,
   5588071025313237000, 9469264384779324, 5700978354396460000, 9544176680744464,
   5808180626619678000, 9615063075283847, 5910083486194518000, 9682235834936652,
   6007056775836025000, 9745976039775797, 6099438156993251000, 9806537362012611,
   6187536345605122000, 9864149311092718, 6271633999553797000, 9919020030614374,
   6351990293204530000, 9971338717269585, 6428843212420017000, 10021277719808260,
   6502411600835498000, 10068994366145480, 6572896985355157000, 10114632558696610,
   6640485206005013000, 10158324171463890, 6705347872580487000, 10200190277019060,
   6767643668025705000, 10240342227102360, 6827519516206730000, 10278882606905000,
   6885111629699746000, 10315906080078450, 6940546451402460000, 10351500139003400,
   6993941502179868000, 10385745772763220, 7045406145358273000, 10418718063527360,
   7095042277666803000, 10450486720601250, 7142944955177615000, 10481116560192740,
   7189202961898697000, 10510667937943830, 7233899327913630000, 10539197140449590,
   7277111803329067000, 10566756741310180, 7318913293773558000, 10593395926716620,
   7359372262783432000, 10619160795143460, 7398553106107196000, 10644094635398580,
   7436516502756216000, 10668238187055700, 7473319747524817000, 10691629887162240,
   7509017069698120000, 10714306107071600, 7543659942763458000, 10736301383293350,
   7577297390145481000, 10757648646388670, 7609976292302569000, 10778379452164110,
   7641741700960905000, 10798524219738320, 7672637166832609000, 10818112481480030,
   7702705087876981000, 10837173150346780, 7731987086032039000, 10855734810800250,
   7760524421380459000, 10873826040242210, 7788358453933391000, 10891475768810270,
   7815531164629429000, 10908713686398010, 7842085748763442000, 10925570706918450,
   7868067296884163000, 10942079501102330, 7893523580223542000, 10958275110493060,
   7918505959922322000, 10974195656727280, 7943070441648366000, 10989883161608120,
   7967278899584394000, 11005384494780670, 7991200496055508000, 11020752466847700,
   8014913325065773000, 11036047086282300, 8038506309404848000, 11051336998164690,
   8062081381315597000, 11066701121118860, 8085755975333251000, 11082230495193600,
   8109665857911905000, 11098030346938590, 8133968310607946000, 11114222367401110,
   8158845670237690000, 11130947182714090, 8184509208406880000, 11148366973501230,
   8211203301382262000, 11166668166281200, 8239209796093340000, 11186064074958730,
   8268852415235040000, 11206797310897860, 8300500959832002000, 11229141704034570,
   8334574957353696000, 11253403384399760, 8371546264999228000, 11279920565349350,
   8411939971620040000, 11309061453349690, 8456332754097852000, 11341219597938320,
   8505347650275864000, 11376805912750900, 8559644039843292000, 11416236579489330,
   8619901524142233000, 11459916138989160, 8686796434054859000]

/-- entries 2689 to 2883 of `RECF`, Rock4-NG/include/coeffs-rock4 3-1099. -/
def recf43 : List ℤ :=
  [2875557040695001, 3493682107340224, 71406528406333920, 4034136512140228,
   337274567858026400, 4507156263114678, 683182797923584900, 4922776751319498,
   1056161282055053000, 5289812044432154, 1430420271934089000, 5615693465755460,
   1793309426893349000, 5906588650957148, 2138882776015863000, 6167592500442515,
   2464723498787023000, 6402916548621664, 2770294926804611000, 6616053847329528,
   3056052894425374000, 6809915244670573, 3322956309926026000, 6986939459404484,
   3572193667731841000, 7149181133975426, 3805029914283647000, 7298381072985963,
   4022721758944257000, 7436022322429453, 4226472436509502000, 7563375079342728,
   4417409357850834000, 7681532808226864, 4596575017826150000, 7791441427437137,
   4764925487070491000, 7893923017930954, 4923333117464571000, 7989695184985524,
   5072591452826548000, 8079386954131118, 5213421151585618000, 8163551890154100,
   5346476220690836000, 8242678979707146, 5472350159192663000, 8317201703560293,
   5591581791948586000, 8387505635876626, 5704660684234719000, 8453934839008121,
   5812032094226068000, 8516797268548299, 5914101459193341000, 8576369361234619,
   6011238433265917000, 8632899945099273, 6103780506208373000, 8686613584996434,
   6192036237904337000, 8737713455743161, 6276288144678238000, 8786383818419733,
   6356795272806594000, 8832792161976796, 6433795492571825000, 8877091061492647,
   6507507543610395000, 8919419795673447, 6578132859480015000, 8959905759071083,
   6645857196542166000, 8998665698679513, 6710852089553720000, 9035806799802425,
   6773276153852716000, 9071427642160033, 6833276251737908000, 9105619043959713,
   6890988538586815000, 9138464808966333, 6946539402426604000, 9170042389371524,
   7000046309052734000, 9200423475395102, 7051618563365225000, 9229674520990890,
   7101357996343394000, 9257857213720340, 7149359585989350000, 9285028895757936,
   7195712019621512000, 9311242942067709, 7240498204076717000, 9336549101012279,
   7283795729669328000, 9360993802001778, 7325677293146301000, 9384620434241330,
   7366211084358048000, 9407469600177421, 7405461140927553000, 9429579346863432,
   7443487674837327000, 9450985378153066, 7480347374559778000, 9471721250379737,
   7516093686126949000, 9491818553984218, 7550777076367228000, 9511307083407467,
   7584445281427596000, 9530214997467334, 7617143543649362000, 9548568972384669,
   7648914839873381000, 9566394349615138, 7679800104318762000, 9583715280677518,
   7709838449309258000, 9600554871248025, 7739067387317117000, 9616935326914640,
   7767523058059455000, 9632878103157287, 7795240464721949000, 9648404062341729,
   7822253723804877000, 9663533640789765, 7848596333593397000, 9678287029319073,
   7874301466854235000, 9692684371035443, 7899402294061247000, 9706745980610886,
   7923932344258477000, 9720492589794330, 7947925911586078000, 9733945624476692,
   7971418516523020000, 9747127519265526, 7994447432038601000, 9760062076207416,
   8017052286081833000, 9772774875013604, 8039275753153862000, 9785293742870214,
   8061164349067315000, 9797649292608989, 8082769344340225000, 9809875538617746,
   8104147812911904000, 9822010600294816, 8125363833872510000, 9834097502974073,
   8146489864477287000, 9846185085894265, 8167608302603168000, 9858329025720855,
   8188813255629256000, 9870592982031828, 8210212529979992000, 9883049867630124,
   8231929850588618000, 9895783241000431, 8254107311438275000, 9908888810000608,
   8276908045991552000, 9922476024127977, 8300519088320196000, 9936669716440181,
   8325154370399047000, 9951611734340783, 8351057766377818000, 9967462469844778,
   8378506048585280000, 9984402163659223, 8407811560526175000, 10002631812947340,
   8439324337673380000, 10022373460411660, 8473433317092810000, 10043869584349130,
   8510566173745598000, 10067381250098530, 8551187210241215000, 10093184630855700,
   8595792618934147000, 10121565472808170, 8644902349222623000, 10152811083863750,
   8699047776816512000, 10187199489888230, 8758754423894201000]

/-- entries 2884 to 3092 of `RECF`, Rock4-NG/include/coeffs-rock4 3-1099. -/
def recf44 : List ℤ :=
  [2516072353014572, 3056959967091976, 71415133312483210, 3529898095786411,
   337323277373179000, 3943840897337921, 683297732935683000, 4307567414106005,
   1056363991444212000, 4628788405472162, 1430728515532258000, 4914005032824914,
   1793737852691615000, 5168612968898808, 2139443476569179000, 5397069428251232,
   2465426458452338000, 5603058824394920, 2771148378485354000, 5789637011504982,
   3057063604036936000, 5959350504603019, 3324129804044311000, 6114332776489099,
   3573534416826857000, 6256381290223384, 3806541481236008000, 6387018947049087,
   4024406920346254000, 6507543147370997, 4228333282534617000, 6619065080162839,
   4419447375155043000, 6722541319677103, 4598791158936434000, 6818799359437668,
   4767320228947860000, 6908558354114982, 4925906511342484000, 6992446058387721,
   5075343166976332000, 7071012733743214, 5216350508314642000, 7144742625858456,
   5349582228611499000, 7214063485450536, 5475631541591856000, 7279354505312647,
   5595037011924066000, 7340952968696949, 5708287967136167000, 7399159843938746,
   5815829447836500000, 7454244513185431, 5918066692004921000, 7506448786223955,
   6015369171138536000, 7555990321360334, 6108074207645846000, 7603065552321395,
   6196490208139152000, 7647852201872223, 6280899548719071000, 7690511448239667,
   6361561147571614000, 7731189798710006, 6438712758203572000, 7770020715316172,
   6512573014043507000, 7807126029873436, 6583343252310160000, 7842617179394069,
   6651209142221997000, 7876596287823588, 6716342139918672000, 7909157115868082,
   6778900789954702000, 7940385897245874, 6839031890937339000, 7970362076856718,
   6896871540821554000, 7999158964005718, 6952546075538913000, 8026844311858064,
   7006172913010297000, 8053480832662807, 7057861313157792000, 8079126656911605,
   7107713063270146000, 8103835743445347, 7155823096970855000, 8127658246549895,
   7202280054070732000, 8150640845261530, 7247166787741905000, 8172827039407797,
   7290560824713176000, 8194257416320207, 7332534783544618000, 8214969891654706,
   7373156755481164000, 8234999927330391, 7412490651900622000, 8254380729235324,
   7450596521952805000, 8273143427041148, 7487530843625873000, 8291317238207998,
   7523346791167432000, 8308929618041609, 7558094481526250000, 8326006397480466,
   7591821202261264000, 8342571910138194, 7624571623184618000, 8358649110001742,
   7656387993861767000, 8374259681086725, 7687310328982383000, 8389424140275449,
   7717376583539388000, 8404161934509115, 7746622819709053000, 8418491533472557,
   7775083367312448000, 8432430518896748, 7802790979757885000, 8445995671611185,
   7829776987415892000, 8459203057504956, 7856071450464104000, 8472068113602371,
   7881703313360623000, 8484605735526905, 7906700563263103000, 8496830367716911,
   7931090394909276000, 8508756097868982, 7954899384715712000, 8520396757221188,
   7978153677138051000, 8531766028449861, 8000879186670883000, 8542877563141193,
   8023101819251651000, 8553745111013562, 8044847717273022000, 8564382663308516,
   8066143532903718000, 8574804613037265, 8087016734969329000, 8585025935063833,
   8107495955250247000, 8595062389322027, 8127611380708978000, 8604930750795124,
   8147395198853895000, 8614649070224791, 8166882104165335000, 8624236969844257,
   8186109874227465000, 8633715978728290, 8205120024888088000, 8643109912587642,
   8223958554353771000, 8652445302964463, 8242676786542088000, 8661751880747444,
   8261332324148928000, 8671063118639505, 8279990121599970000, 8680416836568219,
   8298723687144858000, 8689855872887505, 8317616421559534000, 8699428822395237,
   8336763097907850000, 8709190839453324, 8356271482143981000, 8719204500557906,
   8376264087468918000, 8729540715222103, 8396880045621392000, 8740279666600877,
   8418277064895145000, 8751511753462460, 8440633426727417000, 8763338492436154,
   8464149949224021000, 8775873323529089, 8489051816016571000, 8789242242430914,
   8515590131598368000, 8803584160127719, 8544043019385164000, 8819050864333950,
   8574716026611897000, 8835806429514380, 8607941542532526000, 8854025895229178,
   8644076876951290000, 8873893010135112, 8683500591389794000, 8895596827024104,
   8726606635323475000, 8919326940631082, 8773795829320804000, 8945267194288889,
   8825464274388153000]

/-- entries 3093 to 3315 of `RECF`, Rock4-NG/include/coeffs-rock4 3-1099. -/
def recf45 : List ℤ :=
  [2223192652822833, 2701145057190040, 71422019615789170, 3119065510375409,
   337362265125324900, 3484864321264339, 683389746704608200, 3806297364820721,
   1056526311462410000, 4090176838012951, 1430975404471804000, 4342246342064952,
   1794081097583843000, 4567272828059632, 2139892833907438000, 4769194148963887,
   2465990011834060000, 4951265406555741, 2771832823761325000, 5116186382371055,
   3057874476558851000, 5266206864730374, 3325071660393497000, 5403211724599088,
   3574610980955170000, 5528788972227103, 3807755762784305000, 5644284045399662,
   4025761311147353000, 5750843154180597, 4229829635932437000, 5849447992701323,
   4421087071714556000, 5940943654599883, 4600575161312302000, 6026061192146514,
   4769249128064807000, 6105435941597527, 4927980565571165000, 6179622488629170,
   5077562335628903000, 6249106954973403, 5218714480507487000, 6314317138679972,
   5352090448328407000, 6375630925795459, 5478283229614227000, 6433383302749551,
   5597831185164269000, 6487872230220317, 5711223455807324000, 6539363586005573,
   5818904910810551000, 6588095342876049, 5921280630645867000, 6634281114812185,
   6018719941845592000, 6678113179369536, 6111560033299172000, 6719765063612168,
   6200109188606474000, 6759393764906060, 6284649670553408000, 6797141664962577,
   6365440293006893000, 6833138185165485, 6442718713535327000, 6867501222863375,
   6516703477465010000, 6900338401544602, 6587595841259685000, 6931748162308895,
   6655581400283747000, 6961820719554190, 6720831543307668000, 6990638900109890,
   6783504753604156000, 7018278882011304, 6843747774195197000, 7044810846600041,
   6901696652750492000, 7070299555552817, 6957477679800600000, 7094804862707378,
   7011208232299629000, 7118382169105868, 7062997533135354000, 7141082828461975,
   7112947335920807000, 7162954509237486, 7161152543292093000, 7184041518653100,
   7207701765965301000, 7204385093230375, 7252677828954485000, 7224023659844376,
   7296158230608452000, 7242993070741803, 7338215559473337000, 7261326815532289,
   7378917873419190000, 7279056212778734, 7418329044971879000, 7296210583486120,
   7456509076357754000, 7312817408508591, 7493514387389932000, 7328902471654913,
   7529398078995253000, 7344489990066897, 7564210174894084000, 7359602733269230,
   7597997843696404000, 7374262132138434, 7630805603462782000, 7388488378909974,
   7662675510594492000, 7402300519233290, 7693647334760026000, 7415716537192339,
   7723758721433454000, 7428753434132293, 7753045343511121000, 7441427302069922,
   7781541043385911000, 7453753392414597, 7809277966791059000, 7465746180687905,
   7836286689677923000, 7477419427901918, 7862596339363163000, 7488786239238555,
   7888234711170709000, 7499859120665148, 7913228381802210000, 7510650034123837,
   7937602820697135000, 7521170451945067, 7961382500690559000, 7531431411158165,
   7984591009343806000, 7541443568405107, 8007251162411515000, 7551217256207493,
   8029385121019574000, 7560762541391865, 8051014514262963000, 7570089286545360,
   8072160569092491000, 7579207215452834, 8092844249546161000, 7588125983558522,
   8113086407595959000, 7596855254600513, 8132907948125792000, 7605404784685073,
   8152330010832001000, 7613784515200193, 8171374172145180000, 7622004676113267,
   8190062670610542000, 7630075901355534, 8208418659532486000, 7638009358163845,
   8226466491084072000, 7645816892425407, 8244232036498043000, 7653511192248359,
   8261743047383627000, 7661105972153171, 8279029563638637000, 7668616180436525,
   8296124373828724000, 7676058232385865, 8313063534256175000, 7683450272099249,
   8329886953198786000, 7690812465664271, 8346639046910128000, 7698167328335732,
   8363369473861753000, 7705540088076615, 8380133953277569000, 7712959087329680,
   8396995173132502000, 7720456224088709, 8414023791296488000, 7728067432140554,
   8431299531191393000, 7735833198629735, 8448912369930949000, 7743799114709090,
   8466963812112370000, 7752016451809945, 8485568235840266000, 7760542751796869,
   8504854288745330000, 7769442413753351, 8524966300217779000, 7778787253163293,
   8546065661289765000, 7788657000623884, 8568332105076614000, 7799139696833306,
   8591964798032911000, 7810331928461635, 8617183125335791000, 7822338835880836,
   8644227022726899000, 7835273809189877, 8673356673041829000, 7849257774604757,
   8704851350330804000, 7864417960824488, 8739007161188697000, 7880886026971684,
   8776133406687650000, 7898795433580249, 8816547276255949000, 7918277950171212,
   8860566596308294000, 7939459222137213, 8908500402679119000]

/-- entries 3316 to 3554 of `RECF`, Rock4-NG/include/coeffs-rock4 3-1099. -/
def recf46 : List ℤ :=
  [1944104808172863, 2362079689279158, 71428706459959270, 2727565493010114,
   337400129818747500, 3047478195749429, 683479126970513400, 3328598979745383,
   1056684019862271000, 3576884028469226, 1431215337265024000, 3797355245930193,
   1794414760981541000, 3994180621642384, 2140329776183974000, 4170803229573239,
   2466538170423533000, 4330069180398755, 2772498801896881000, 4474339038008580,
   3058663763636773000, 4605579911155484, 3325988808094674000, 4725439839337465,
   3575659744772789000, 4835307298323497, 3808939216502081000, 4936358667461324,
   4027081940104168000, 5029596128586884, 4231289413573305000, 5115878016710237,
   4422687522901076000, 5195943228286058, 4602317415082190000, 5270430946153614,
   4771133961932997000, 5339896662637906, 4930008443009192000, 5404825264865527,
   5079733438010129000, 5465641777837335, 5221028734536995000, 5522720230787040,
   5354547549768437000, 5576391012124826, 5480882663954187000, 5626947000884556,
   5600572245757691000, 5674648702683609, 5714105259898375000, 5719728571649507,
   5821926413793687000, 5762394663436609, 5924440638839293000, 5802833735974854,
   6022017124008726000, 5841213892159104, 6114992931083616000, 5877686840933180,
   6203676226097062000, 5912389839103901, 6288349163028890000, 5945447364939478,
   6369270455027728000, 5976972565551031, 6446677666447655000, 6007068512753596,
   6520789256394534000, 6035829296188046, 6591806401656133000, 6063340977673600,
   6659914624065441000, 6089682426829690, 6725285244645836000, 6114926054781716,
   6788076684377859000, 6139138460109964, 6848435629139552000, 6162380999006194,
   6906498074313085000, 6184710289781289, 6962390262713238000, 6206178660351128,
   7016229527864589000, 6226834546060954, 7068125053216801000, 6246722844146502,
   7118178556622645000, 6265885230237052, 7166484908292960000, 6284360441552101,
   7213132689469173000, 6302184530805945, 7258204698201126000, 6319391094293539,
   7301778407871102000, 6336011477170803, 7343926383451020000, 6352074958549976,
   7384716659907177000, 6367608918694911, 7424213086665331000, 6382638990313429,
   7462475641609494000, 6397189195696667, 7499560717702578000, 6411282071242605,
   7535521384979339000, 6424938780717482, 7570407630365846000, 6438179218450410,
   7604266577520002000, 6451022103519516, 7637142688659893000, 6463485065869407,
   7669077950147200000, 6475584725197199, 7700112043418378000, 6487336763355520,
   7730282502703713000, 6498755990944187, 7759624860841656000, 6509856408696007,
   7788172784380623000, 6520651264205267, 7815958199061201000, 6531153104498718,
   7843011406686931000, 6541373824907588, 7869361194320170000, 6551324714664429,
   7895034936680300000, 6561016499619955, 7920058692573547000, 6570459382452019,
   7944457296146663000, 6579663080720945, 7968254443729997000, 6588636863112547,
   7991472777018847000, 6597389584201900, 8014133963335314000, 6605929718067311,
   8036258773716017000, 6614265391084759, 8057867159584249000, 6622404414238483,
   8078978328788472000, 6630354315293254, 8099610821822975000, 6638122371188470,
   8119782589091303000, 6645715641033481, 8139511070129370000, 6653141000107842,
   8158813275773382000, 6660405175299571, 8177705874338767000, 6667514782449204,
   8196205282970527000, 6674476366107756, 8214327765433879000, 6681296442262653,
   8232089537737035000, 6687981544637654, 8249506883116352000, 6694538275230569,
   8266596278067956000, 6700973359816298, 8283374531279623000, 6707293709212047,
   8299858937501698000, 6713506487175972, 8316067448595303000, 6719619185889133,
   8332018864208099000, 6725639710052013, 8347733044749573000, 6731576470708964,
   8363231149564427000, 6737438489993667, 8378535903427503000, 6743235518061943,
   8393671894697208000, 6748978163539151, 8408665908653167000, 6754678038850311,
   8423547299689949000, 6760347921811532, 8438348406117731000, 6766001934827970,
   8453105011300979000, 6771655742948709, 8467856854705638000, 6777326771850360,
   8482648196070496000, 6783034446530447, 8497528435300649000, 6788800451053436,
   8512552789714525000, 6794649009063183, 8527783028853924000, 6800607183903051,
   8543288265058852000, 6806705196006733, 8559145795259218000, 6812976753667025,
   8575441985760544000, 6819459391275817, 8592273186991227000, 6826194806570309,
   8609746659004744000, 6833229185231614, 8627981480750792000, 6840613497285638,
   8647109406514445000, 6848403745099397, 8667275621282101000, 6856661137341258,
   8688639333027147000, 6865452157148280, 8711374124074637000, 6874848486099405,
   8735667966111716000, 6884926738773656, 8761722784739423000, 6895767956239815,
   8789753440908044000, 6907456801615706, 8819985980014631000, 6920080398012621,
   8852654987569412000, 6933726750250028, 8887999886800295000, 6948482698509175,
   8926260022952612000, 6964431366613300, 8967668406721245000]

/-- entries 3555 to 3811 of `RECF`, Rock4-NG/include/coeffs-rock4 3-1099. -/
def recf47 : List ℤ :=
  [1687522084062742, 2050350430521891, 71434892251048150, 2367622652786059,
   337435162516660000, 2645340906026387, 683561836623236600, 2889390544558335,
   1056829987008023000, 3104940979691790, 1431437456375445000, 3296350786177901,
   1794723727318731000, 3467237429868135, 2140734485464243000, 3620589217153205,
   2467046039766637000, 3758876341573480, 2773116025546536000, 3884147581578293,
   3059395516583021000, 3998110227339366, 3326839408735750000, 4102194641152033,
   3576632785546656000, 4197605903284232, 3810037669469621000, 4285365009823915,
   4028308242884812000, 4366341766023805, 4232645539797606000, 4441281128435874,
   4424175040394658000, 4510824389517647, 4603937534270471000, 4575526297479205,
   4772887576403662000, 4635868963219365, 4931896163747717000, 4692273217485011,
   5081755622500645000, 4745107935135632, 5223185511672184000, 4794697730555439,
   5356838841319745000, 4841329341264508, 5483308203204026000, 4885256949620448,
   5603131593778051000, 4926706640505523, 5716797819868060000, 4965880152488166,
   5824751443673352000, 5002958048415423, 5927397262665235000, 5038102406673260,
   6025104342019820000, 5071459114881099, 6118209628858234000, 5103159832377398,
   6207021182846412000, 5133323675598979, 6291821059168485000, 5162058670665758,
   6372867879128392000, 5189463009622880, 6450399121650791000, 5215626140454308,
   6524633166362535000, 5240629715848112, 6595771116117261000, 5264548421517410,
   6663998424002746000, 5287450701469129, 6729486347171443000, 5309399394814304,
   6792393247326799000, 5330452296408964, 6852865755411093000, 5350662651709710,
   6911039815981985000, 5370079594647384, 6967041624928251000, 5388748536006167,
   7020988472546843000, 5406711508695714, 7072989502566063000, 5424007475382063,
   7123146396434907000, 5440672603167729, 7171553991088069000, 5456740509357201,
   7218300837422168000, 5472242481790601, 7263469705865458000, 5487207676758462,
   7307138044675716000, 5501663297110800, 7349378395946277000, 5515634752832510,
   7390258773726449000, 5529145806065207, 7429843008159668000, 5542218702305272,
   7468191059101640000, 5554874289292619, 7505359302293567000, 5567132124919160,
   7541400790825443000, 5579010575325747, 7576365494325465000, 5590526904217706,
   7610300518048509000, 5601697354308827, 7643250303805051000, 5612537221699207,
   7675256814467769000, 5623060923901496, 7706359703613220000, 5633282062150818,
   7736596471697186000, 5643213478564601, 7766002610022336000, 5652867308658178,
   7794611733633313000, 5662255029669265, 7822455704165419000, 5671387505098367,
   7849564743577130000, 5680275025831865, 7875967539612229000, 5688927348179374,
   7901691343763252000, 5697353729126355, 7926762062443136000, 5705562959076292,
   7951204342015494000, 5713563392333756, 7975041648285145000, 5721362975559819,
   7998296341008703000, 5728969274414422, 8020989743949635000, 5736389498586027,
   8043142210972835000, 5743630525397174, 8064773188650033000, 5750698922165000,
   8085901275829018000, 5757600967488519, 8106544280606480000, 5764342671629149,
   8126719275136132000, 5770929796147660, 8146442648700573000, 5777367872959363,
   8165730159477090000, 5783662222969873, 8184596985434300000, 5789817974456180,
   8203057774808211000, 5795840081362118, 8221126696623233000, 5801733341683536,
   8238817491745800000, 5807502416126773, 8256143524986065000, 5813151847234263,
   8273117838796568000, 5818686079183535, 8289753209156332000, 5824109478480398,
   8306062204274619000, 5829426355783928, 8322057246800982000, 5834640989120021,
   8337750680287443000, 5839757648761715, 8353154840714917000, 5844780624078450,
   8368282133969516000, 5849714252682631, 8383145120235179000, 5854562952230521,
   8397756606357110000, 5859331255265216, 8412129747325485000, 5864023847522156,
   8426278158130220000, 5868645610151844, 8440216037344282000, 5873201666349592,
   8453958303903653000, 5877697432917324, 8467520748664289000, 5882138677316644,
   8480920202427393000, 5886531580803781, 8494174722229419000, 5890882808263732,
   8507303797787185000, 5895199585379871, 8520328580063178000, 5899489783783064,
   8533272133961881000, 5903762014816018, 8546159717171726000, 5908025732518324,
   8559019087112308000, 5912291346377758, 8571880837811910000, 5916570344294526,
   8584778768299521000, 5920875426055483, 8597750283715609000, 5925220647400795,
   8610836829786467000, 5929621574468788, 8624084360518852000, 5934095448005555,
   8637543837896255000, 5938661356200435, 8651271760926207000, 5943340414329835,
   8665330719519609000, 5948155948529893, 8679789966288171000, 5953133679941353,
   8694725996326264000, 5958301904145430, 8710223121296252000, 5963691659207649,
   8726374019561604000, 5969336873744813, 8743280238622816000, 5975274484218217,
   8761052619650037000, 5981544508145503, 8779811606467381000, 5988190057157910,
   8799687393004150000, 5995257270899495, 8820819854186045000, 6002795149823573,
   8843358195863941000, 6010855262223838, 8867460250263935000, 6019491298677465,
   8893291335470804000, 6028758445922773, 8921022591848045000, 6038712552612012,
   8950828706648276000, 6049409062046725, 8982884942350033000, 6060901692668509,
   9017363396754307000]

/-- entries 3812 to 4086 of `RECF`, Rock4-NG/include/coeffs-rock4 3-1099. -/
def recf48 : List ℤ :=
  [1481251565099711, 1799742621307956, 71439749343196470, 2078249765617697,
   337462673546667300, 2322040770469374, 683626797205851000, 2536281024389343,
   1056944648470500000, 2725507603509361, 1431611968300346000, 2893545952483257,
   1794966519846322000, 3043571067937865, 2141052583069300000, 3178205747305427,
   2467445313185863000, 3299618049127232, 2773601392459256000, 3409606161517330,
   3059971101361032000, 3509668551995601, 3327508670011682000, 3601060630945735,
   3577398618615326000, 3684840080409944, 3810902489006329000, 3761903012944965,
   4029274050222500000, 3833012841788339, 4233713978033811000, 3898823401138323,
   4425347439853034000, 3959897539743794, 4605214950272289000, 4016722146902933,
   4774270820870889000, 4069720358522181, 4933385831828130000, 4119261525257769,
   5083352115151812000, 4165669396400193, 5224889054945915000, 4209228874124991,
   5358649502937634000, 4250191616382618, 5485225906897057000, 4288780707755034,
   5605156131771371000, 4325194571969843, 5718928863819531000, 4359610264298928,
   5826988554317172000, 4392186254392934, 5929739898366225000, 4423064788406665,
   6027551866407443000, 4452373902181403, 6120761317679944000, 4480229143725210,
   6209676230156103000, 4506735052476993, 6294578582946426000, 4531986434246486,
   6375726926413187000, 4556069463824008, 6453358673250855000, 4579062641690959,
   6527692141203824000, 4601037626756183, 6598928375275065000, 4622059963377751,
   6667252774457851000, 4642189717935211, 6732836545324753000, 4661482037761131,
   6795838002301146000, 4679987643218002, 6856403732164480000, 4697753262034514,
   6914669638252581000, 4714822013627870, 6970761878028088000, 4731233749983658,
   7024797706018147000, 4747025358699538, 7076886232711463000, 4762231032989864,
   7127129108730295000, 4776882512767774, 7175621142484538000, 4791009300347118,
   7222450858541227000, 4804638853820701, 7267701003089460000, 4817796760758937,
   7311449002133155000, 4830506894522046, 7353767377389203000, 4842791555179398,
   7394724124294618000, 4854671596773276, 7434383056023196000, 4866166542444491,
   7472804116970708000, 4877294688748149, 7510043668780048000, 4888073200324911,
   7546154751637144000, 4898518195952196, 7581187323268813000, 4908644826877864,
   7615188477809879000, 4918467348233061, 7648202646474365000, 4927999184228891,
   7680271781760355000, 4937252987761405, 7711435526736958000, 4946240694979417,
   7741731370801548000, 4954973575308488, 7771194793153748000, 4963462277370809,
   7799859395107068000, 4971716871193750, 7827757022247849000, 4979746887058557,
   7854917877352522000, 4987561351304407, 7881370624886681000, 4995168819371097,
   7907142487831792000, 5002577406335545, 7932259337516524000, 5009794815172498,
   7956745777068556000, 5016828362948059, 7980625219048639000, 5023685005135441,
   8003919957780823000, 5030371358225455, 8026651236850512000, 5036893720789472,
   8048839312204863000, 5043258093139596, 8070503511257529000, 5049470195719527,
   8091662288371395000, 5055535486349787, 8112333277068590000, 5061459176442604,
   8132533339296184000, 5067246246294598, 8152278612058557000, 5072901459559465,
   8171584551713140000, 5078429376997978, 8190465976214947000, 5083834369598832,
   8208937105586978000, 5089120631160979, 8227011600888023000, 5094292190426258,
   8244702601946616000, 5099352922850141, 8262022764129838000, 5104306562098390,
   8278984294418413000, 5109156711358289, 8295598987064962000, 5113906854554846,
   8311878259120602000, 5118560367565149, 8327833186126263000, 5123120529527563,
   8343474538279233000, 5127590534347159, 8358812817402723000, 5131973502504269,
   8373858295066677000, 5136272493279681, 8388621052231878000, 5140490517517616,
   8403111020816669000, 5144630551056335, 8417338027616508000, 5148695548966082,
   8431311841041218000, 5152688460744951, 8445042221173288000, 5156612246635426,
   8458538973693004000, 5160469895237514, 8471812008262565000, 5164264442608728,
   8484871402011642000, 5167998993056541, 8497727468820885000, 5171676741845232,
   8510390835157448000, 5175301000056107, 8522872523277160000, 5178875221857676,
   8535184042670900000, 5182403034460151, 8547337490696901000, 5185888271046153,
   8559345663404898000, 5189335006986104, 8571222177620127000, 5192747599661662,
   8582981605412726000, 5196130732232652, 8594639622127785000, 5199489461690734,
   8606213169188581000, 5202829271545004, 8617720632905069000, 5206156129478312,
   8629182040514101000, 5209476550295669, 8640619274638366000, 5212797664454193,
   8652056307266341000, 5216127292413131, 8663519454211874000, 5219474024967696,
   8675037650792340000, 5222847309624981, 8686642749148173000, 5226257542936992,
   8698369837189167000, 5229716168515654, 8710257578565097000, 5233235780207398,
   8722348572285707000, 5236830229588920, 8734689729618574000, 5240514736547882,
   8747332664628638000, 5244306001218837, 8760334093141517000, 5248222314940908,
   8773756232962860000, 5252283667175941, 8787667195815746000, 5256511844461572,
   8802141358619505000, 5260930516464654, 8817259698386894000, 5265565303044834,
   8833110071141399000, 5270443814944088, 8849787410860012000, 5275595659308863,
   8867393819581020000, 5281052399771031, 8886038514594998000, 5286847459332971,
   8905837593259870000, 5293015952926587, 8926913570756628000, 5299594435392922,
   8949394641477838000, 5306620549953031, 8973413611324083000, 5314132562256762,
   8999106446760794000, 5322168766096215, 9026610388027025000, 5330766749183085,
   9056061579514983000, 5339962511354281, 9087592181279729000]

/-- entries 4087 to 4381 of `RECF`, Rock4-NG/include/coeffs-rock4 3-1099. -/
def recf49 : List ℤ :=
  [1291672658807919, 1569411415132314, 71444293744440410, 1812286696375032,
   337488416387090400, 2024891487895646, 683687590634666800, 2211729609091939,
   1057051970576302000, 2376757078934563, 1431775337300160000, 2523309440420044,
   1795193851821314000, 2654155096114621, 2141350485529856000, 2771580968905830,
   2467819320733997000, 2877477478365611, 2774056154477370000, 2973412539386665,
   3060510531385813000, 3060692727883761, 3328136064982617000, 3140412687616450,
   3578116754563008000, 3213494654089220, 3811713698313008000, 3280719982928522,
   4030180284424702000, 3342754323013638, 4234716859228214000, 3400167776073826,
   4426448303068433000, 3453451109288780, 4606414878637722000, 3503028857160415,
   4775570675004032000, 3549269964559184, 4934786274558236000, 3592496478431822,
   5084853632454120000, 3632990683734921, 5226491973781846000, 3671000992804959,
   5360354006553708000, 3706746830802694, 5487032048025572000, 3740422708473267,
   5607063844089742000, 3772201633670793, 5720937971957492000, 3802237982173855,
   5829098782647339000, 3830669924186714, 5931950878770883000, 3857621484003172,
   6029863145180095000, 3883204295409269, 6123172361692740000, 3907519103608007,
   6212186432401899000, 3930657055071256, 6297187267546153000, 3952700809230814,
   6378433353164356000, 3973725499905643, 6456162041780895000, 3993799569511753,
   6530591594781886000, 4012985495172340, 6601923004327613000, 4031340422649590,
   6670341619826434000, 4048916721408514, 6736018601298540000, 4065762471981460,
   6799112219451942000, 4081921895038212, 6859769020007800000, 4097435730108617,
   6918124867754873000, 4112341570695012, 6974305883977158000, 4126674161504436,
   7028429289271262000, 4140465662688992, 7080604162333366000, 4153745885277149,
   7130932124031323000, 4166542501385347, 7179507954967295000, 4178881232298605,
   7226420153762622000, 4190786017085115, 7271751442443414000, 4202279164050269,
   7315579224557873000, 4213381487029441, 7357976001001488000, 4224112428257702,
   7399009747952365000, 4234490169331078, 7438744260815747000, 4244531731582231,
   7477239467635279000, 4254253067028491, 7514551715040853000, 4263669140908001,
   7550734029462083000, 4272794006696848, 7585836356036648000, 4281640874393643,
   7619905777378660000, 4290222172765655, 7652986714139369000, 4298549606170237,
   7685121109086968000, 4306634206495281, 7716348596250679000, 4314486380701255,
   7746706656513523000, 4322115954393903, 7776230760895890000, 4329532211809737,
   7804954502645794000, 4336743932555310, 7832909719139642000, 4343759425404994,
   7860126604497781000, 4350586559430094, 7886633813730524000, 4357232792703970,
   7912458559151491000, 4363705198802944, 7937626699724827000, 4370010491300795,
   7962162823950203000, 4376155046435118, 7986090326833559000, 4382144924106579,
   8009431481441662000, 4387985887356742, 8032207505493939000, 4393683420456565,
   8054438623405243000, 4399242745725549, 8076144124157677000, 4404668839190812,
   8097342415347859000, 4409966445185832, 8118051073727768000, 4415140089980146,
   8138286892532131000, 4420194094523807, 8158065925862987000, 4425132586383796,
   8177403530382282000, 4429959510943727, 8196314404545940000, 4434678641933102,
   8214812625597571000, 4439293591347870, 8232911684526717000, 4443807818820194,
   8250624519185151000, 4448224640492010, 8267963545745015000, 4452547237444166,
   8284940688674631000, 4456778663730607, 8301567409401316000, 4460921854065215,
   8317854733825585000, 4464979631207512, 8333813278847675000, 4468954713092401,
   8349453278065194000, 4472849719748584, 8364784606800110000, 4476667180050050,
   8379816806613994000, 4480409538345297, 8394559109472592000, 4484079161009533,
   8409020461724398000, 4487678342966111, 8423209548062871000, 4491209314224874,
   8437134815648469000, 4494674246486925, 8450804498574688000, 4498075259867541,
   8464226642871850000, 4501414429791688, 8477409132253626000, 4504693794119635,
   8490359714824147000, 4507915360563808, 8503086030978187000, 4511081114462013,
   8515595642743328000, 4514193026976681, 8527896064831288000, 4517253063794774,
   8539994797685749000, 4520263194408489, 8551899362836138000, 4523225402062811,
   8563617340890786000, 4526141694462433, 8575156412528867000, 4529014115337412,
   8586524402878235000, 4531844756974208, 8597729329695807000, 4534635773826384,
   8608779455798125000, 4537389397327130, 8619683346221994000, 4540107952033793,
   8630449930628203000, 4542793873242631, 8641088571494663000, 4545449726219747,
   8651609138678200000, 4548078227201481, 8662022090955666000, 4550682266323894,
   8672338565183648000, 4553264932646083, 8682570473740338000, 4555829541435220,
   8692730610930814000, 4558379663881761, 8702832769045586000, 4560919159410250,
   8712891864758329000, 4563452210743556, 8722924076528336000, 4565983361864682,
   8732946993631147000, 4568517558999058, 8742979777371169000, 4571060194709263,
   8753043334925269000, 4573617155151244, 8763160506117581000, 4576194870483323,
   8773356263222484000, 4578800368343567, 8783657923622515000, 4581441330213403,
   8794095374796469000, 4584126150361641, 8804701310663527000, 4586863996908342,
   8815511477743261000, 4589664874357118, 8826564928888149000, 4592539686711794,
   8837904281482389000, 4595500300013319, 8849575975954920000, 4598559602799827,
   8861630529202466000, 4601731562602071, 8874122776038270000, 4605031276134677,
   8887112090056589000, 4608475010329713, 8900662573321374000, 4612080230785231,
   8914843202051330000, 4615865613575363, 8929727913000981000, 4619851035704269,
   8945395612571059000, 4624057538807515, 8961930087896581000, 4628507260045860,
   8979419796374420000, 4633223323547168, 8997957507473553000, 4638229685297288,
   9017639768452591000, 4643550924143431, 9038566164094044000, 4649211971655587,
   9060838340132801000, 4655237774111018, 9084558761162183000, 4661652880954744,
   9109829176962647000, 4668480955879464, 9136748776971255000]

/-- `RECF[4382]`, Rock4-NG/include/coeffs-rock4 3-1099, cut into the blocks of the formulas. -/
def recf : List (List ℤ) :=
  [recf0, recf1, recf2, recf3, recf4, recf5, recf6, recf7, recf8, recf9, recf10, recf11, recf12
    , recf13, recf14, recf15, recf16, recf17, recf18, recf19, recf20, recf21, recf22, recf23
    , recf24, recf25, recf26, recf27, recf28, recf29, recf30, recf31, recf32, recf33, recf34
    , recf35, recf36, recf37, recf38, recf39, recf40, recf41, recf42, recf43, recf44, recf45
    , recf46, recf47, recf48, recf49]

/-- entries 0 to 49 of `FPA`, Rock4-NG/include/coeffs-rock4 1101-1176. -/
def fpa0 : List ℤ :=
  [-1493520786726990000, -1793135931326770000, -1824281041782890000, -1777472821566890000,
   -1710972142947840000, -1644461451102920000, -1584276551712570000, -1532930580755720000,
   -1489728043051390000, -1451799375999820000, -1418037791621820000, -1391219435621700000,
   -1366266535398950000, -1344864475767140000, -1327806740180830000, -1311176097994130000,
   -1297379432062220000, -1285469481416810000, -1274603771044480000, -1264964101553420000,
   -1248684161186150000, -1235644055100460000, -1225050083292860000, -1216403294495300000,
   -1209179176914820000, -1207102483966320000, -1201519467265420000, -1196508045129640000,
   -1192316902741090000, -1186852233116110000, -1182317962861350000, -1178601688101320000,
   -1175416324079200000, -1172807912904900000, -1170208093442190000, -1168401101066620000,
   -1169991417760970000, -1167874742236220000, -1165430532423190000, -1163698778481720000,
   -1159818319524770000, -1159344092398790000, -1145439308539650000, -1143381908929590000,
   -1139008067064790000, -1142412307455590000, -1138308538185690000, -1131050393462150000,
   -1133736950719060000, -1129383700806330000]

/-- entries 50 to 99 of `FPA`, Rock4-NG/include/coeffs-rock4 1101-1176. -/
def fpa1 : List ℤ :=
  [6297689629852520000, 5223549788819960000, 4885819742328390000, 4755988908589700000,
   4710213809961390000, 4703153415521330000, 4714688786200550000, 4732820791770350000,
   4752969595445370000, 4776612314911250000, 4802944722515980000, 4823075693545850000,
   4846418963837590000, 4867577236606920000, 4883219525870490000, 4901936397546130000,
   4917003192014090000, 4930113232255140000, 4942931498843160000, 4954586916599650000,
   4974905970514250000, 4991647325203270000, 5005553839479920000, 5017004023499541000,
   5026751194912590000, 5023610655886370000, 5031874636250060000, 5039688447361130000,
   5046103275551980000, 5054793099447960000, 5062138906717760000, 5068139865594610000,
   5073405470922230000, 5077620247303830000, 5082348536068509000, 5085139319273320000,
   5077389653638690000, 5081245100620970000, 5086490230593580000, 5089506708817790000,
   5099429377890550000, 5099326257947260000, 5140556669692590000, 5145681293297100000,
   5158152472787630000, 5146426059308590000, 5158342546726570000, 5180476290399090000,
   5171181563254430000, 5184402127132050000]

/-- entries 100 to 149 of `FPA`, Rock4-NG/include/coeffs-rock4 1101-1176. -/
def fpa2 : List ℤ :=
  [-3552010615736500000, -2680202632432680000, -2439990273726730000, -2365441458575690000,
   -2354323011755290000, -2370547360246560000, -2398538024508120000, -2429108507654060000,
   -2458992601532890000, -2489884041837590000, -2521496389853890000, -2546569892450240000,
   -2573320577128380000, -2597336248521030000, -2615887694188010000, -2636464323392840000,
   -2653379543007470000, -2668161779223760000, -2682312713257240000, -2695132323701080000,
   -2717373911652110000, -2735656166409580000, -2750817976791370000, -2763330076727890000,
   -2773954660551270000, -2772991804007630000, -2781734890889460000, -2789875582513270000,
   -2796620194521100000, -2805660275359410000, -2813274993078950000, -2819517336663530000,
   -2824961648082530000, -2829361018357800000, -2834112455448390000, -2837080618605110000,
   -2830855505978180000, -2834731799915930000, -2839755439420500000, -2842840713728580000,
   -2851928923371940000, -2852140657258900000, -2888771286635960000, -2893544677840580000,
   -2904796216815170000, -2894647305871690000, -2905355657696870000, -2925085423646700000,
   -2917013207455080000, -2928828692282720000]

/-- entries 150 to 199 of `FPA`, Rock4-NG/include/coeffs-rock4 1101-1176. -/
def fpa3 : List ℤ :=
  [146745996307541000, 410644459848542000, 403844469216897000, 357873367680739000,
   305165148305403000, 253636332272387000, 205746749952032000, 163722321103915000,
   127203010191100000, 93073070379809200, 60598054871602000, 34972347936024800,
   9158692938600060, -13598899717015700, -31370104935072300, -50213472967422600,
   -65760271235509200, -79300477170600410, -92071706117217290, -103575442717928000,
   -123394260182449000, -139585436258901000, -152951780850662000, -163961730000813000,
   -173277807640047000, -173459597107178000, -180998664145073000, -187954561730573000,
   -193736976241804000, -201436607277488000, -207902381330527000, -213206692268858000,
   -217814864430309000, -221553810871189000, -225511383509412000, -228054436800931000,
   -223557928014705000, -226786360708563000, -230858609767789000, -233448484372084000,
   -240615204888854000, -240929036649298000, -269187182378037000, -272970253684862000,
   -281706242269155000, -274037778296787000, -282330735764243000, -297505373346793000,
   -291406743553601000, -300502325911247000]

/-- entries 200 to 249 of `FPA`, Rock4-NG/include/coeffs-rock4 1101-1176. -/
def fpa4 : List ℤ :=
  [-558517281602565000, -673692676033641100, -621100542563179000, -561802405454197000,
   -508758913107147000, -462365759807733000, -421744356707249000, -387108095861697000,
   -357508839759137000, -330359105371527000, -304878190339923000, -284636204606306000,
   -264509129364182000, -246765061257936000, -232786280695929000, -218133033112692000,
   -205977998576123000, -195369613099883000, -185386009080156000, -176387115527810000,
   -160868868427959000, -148169722656038000, -137670777523960000, -129007107727469000,
   -121670308408281000, -121268146405534000, -115355117518033000, -109907774512063000,
   -105368584242475000, -99329102411447900, -94255381189223690, -90087167515903400,
   -86467012080963990, -83523547649161400, -80425544996107910, -78415743854191100,
   -81764618172943790, -79237049321540100, -76074281773787600, -74038783606764400,
   -68513467173606600, -68232590588860400, -46526155522202700, -43583830522169600,
   -36828697490250400, -42701679779179300, -36293960282868100, -24570371401219700,
   -29256057587569900, -22218837734184500]

/-- entries 250 to 299 of `FPA`, Rock4-NG/include/coeffs-rock4 1101-1176. -/
def fpa5 : List ℤ :=
  [5903129313527060000, 5349742528959650000, 5108915010549590000, 4985023937801490000,
   4915375361213940000, 4873941538084890000, 4848299130140080000, 4830810342990370000,
   4818259817392980000, 4810742581139030000, 4807176800792510000, 4802675458861510000,
   4801547209844000000, 4800845937146730000, 4798820048995980000, 4799290654386690000,
   4798985567824860000, 4798572996333250000, 4798695286369230000, 4798871744042880000,
   4799327246334690000, 4799737476502300000, 4800094283751710000, 4800316731271570000,
   4800541184770960000, 4795965447270200000, 4796633272384310000, 4797488065938350000,
   4798071722546040000, 4799031357866030000, 4799885589797370000, 4800538917646920000,
   4801169522190680000, 4801595816412430000, 4802409089745760000, 4802587581991550000,
   4798390841508660000, 4799050011440180000, 4800402473887730000, 4800819258157260000,
   4804129581099690000, 4803532828614870000, 4819284104013480000, 4820827315120070000,
   4825247451704330000, 4820296964949760000, 4824598474106510000, 4832857478252780000,
   4828999512739870000, 4833868033344080000]

/-- `FPA[300]`, Rock4-NG/include/coeffs-rock4 1101-1176, cut into columns. -/
def fpa : List (List ℤ) :=
  [fpa0, fpa1, fpa2, fpa3, fpa4, fpa5]

/-- entries 0 to 49 of `FPB`, Rock4-NG/include/coeffs-rock4 1178-1228. -/
def fpb0 : List ℤ :=
  [9345026254898090000, 7274285067102840000, 6719695680612430000, 6556167002979810000,
   6537666300517569000, 6579584015500800000, 6646448283275040000, 6717789268978830000,
   6786622061219570000, 6857119603107530000, 6928846073633550000, 6985466568914540000,
   7045739217922810000, 7099714289059860000, 7141251786644101000, 7187362745634840000,
   7225173877676850000, 7258163438132740000, 7289740768208630000, 7318323979138250000,
   7367867294848500000, 7408540991302860000, 7442238961954030000, 7470018327004330000,
   7493594319201610000, 7491009983205980000, 7510438732007000000, 7528546243960870000,
   7543531698897820000, 7563630174474990000, 7580559635801321000, 7594430047279750000,
   7606531603270020000, 7616299560102110000, 7626887898876270000, 7633464005548490000,
   7619233048462259000, 7627868067853310000, 7639116443451840000, 7645975622489840000,
   7666427811705000000, 7666825554934120000, 7749554387465130000, 7760273516396849000,
   7785631379747420000, 7762646641662500000, 7786790382145190000, 7831312471383231000,
   7813041044955010000, 7839693236507510000]

/-- entries 50 to 99 of `FPB`, Rock4-NG/include/coeffs-rock4 1178-1228. -/
def fpb1 : List ℤ :=
  [-4265564028011350000, -2818825006107540000, -2473270272960300000, -2388086797400350000,
   -2397176596253420000, -2445045713108740000, -2508361314756910000, -2573410948884940000,
   -2635385639905340000, -2697240272692460000, -2758866281733540000, -2808810062479690000,
   -2860454572917290000, -2906820082219830000, -2943496913476160000, -2982880363588340000,
   -3015684622049420000, -3044481131952810000, -3071823205897770000, -3096594647122250000,
   -3139572883286570000, -3174954261614590000, -3204336321934170000, -3228654196919330000,
   -3249307417018970000, -3249859932393830000, -3266615863087740000, -3282104338310080000,
   -3295011397034090000, -3312227861889010000, -3326715068245950000, -3338623300334220000,
   -3348981395703660000, -3357399502844130000, -3366304745893570000, -3372046800675830000,
   -3362061567207790000, -3369330719076230000, -3378486249973970000, -3384333633676460000,
   -3400442760212760000, -3401182201483530000, -3464892970903280000, -3473480436600420000,
   -3493305129881040000, -3475947355399350000, -3494764815796560000, -3529279330647920000,
   -3515415852322330000, -3536135711961700000]

/-- entries 100 to 149 of `FPB`, Rock4-NG/include/coeffs-rock4 1178-1228. -/
def fpb2 : List ℤ :=
  [-4286126090287230000, -3668831818114750000, -3484104226757220000, -3429180976019180000,
   -3421246253735600000, -3431250077478220000, -3447677607156370000, -3464379367290900000,
   -3479712271803090000, -3495359077366820000, -3511319807327740000, -3522851027138570000,
   -3535639792959680000, -3546791845474330000, -3554645105918200000, -3564015121650520000,
   -3571294786867640000, -3577467566885700000, -3583454834914170000, -3588814561954610000,
   -3597979244326670000, -3605351216859620000, -3611355600934820000, -3616203502296700000,
   -3620281079489340000, -3617966076621970000, -3621478169316960000, -3624824314518120000,
   -3627525093967700000, -3631198505506140000, -3634291987701580000, -3636793247807920000,
   -3638991753653360000, -3640723764231530000, -3642747851260920000, -3643858961337560000,
   -3639786034320880000, -3641429569051080000, -3643782490375530000, -3645034412291430000,
   -3649672519510140000, -3649469730375360000, -3669160814110720000, -3671474111260570000,
   -3677278435198900000, -3671594511162400000, -3677159537106400000, -3687527410912260000,
   -3683067007902800000, -3689225350230760000]

/-- entries 150 to 199 of `FPB`, Rock4-NG/include/coeffs-rock4 1178-1228. -/
def fpb3 : List ℤ :=
  [7443700905748550000, 6843413226281280000, 6575167224910040000, 6432743120481760000,
   6348428944089730000, 6294529940910470000, 6258042923715540000, 6231137899545890000,
   6210406832226280000, 6195664566172731000, 6185685013414010000, 6175711923990560000,
   6169650308081780000, 6164620602891970000, 6158885727797720000, 6155948962063870000,
   6152676478260050000, 6149639619799910000, 6147393629361090000, 6145449008634321000,
   6142281009351160000, 6139737963552410000, 6137660548980600000, 6135861212526650000,
   6134383780390650000, 6128672581446050000, 6128074536479520000, 6127821003410900000,
   6127454035196620000, 6127194665185800000, 6127039161062630000, 6126854087655630000,
   6126773014606109000, 6126601393811660000, 6126872940138590000, 6126617858469530000,
   6122216996047940000, 6122432122389120000, 6123356670416900000, 6123390408745670000,
   6126188831573750000, 6125383178989831000, 6139855546718750000, 6141090877833700000,
   6145020953249900000, 6140231485209950000, 6144094637846880000, 6151666870434110000,
   6147946882668170000, 6152388130232930000]

/-- `FPB[200]`, Rock4-NG/include/coeffs-rock4 1178-1228, cut into columns. -/
def fpb : List (List ℤ) :=
  [fpb0, fpb1, fpb2, fpb3]

/-- entries 0 to 49 of `FPBE`, Rock4-NG/include/coeffs-rock4 1230-1293. -/
def fpbe0 : List ℤ :=
  [11350997211054000000, 10047919967478800000, 9849074101676930000, 9801712013037140000,
   9748346957762000000, 9666683533299920000, 9563197477202220000, 9435877870646900000,
   9298684416218070000, 9178789470922341000, 9079210310178130000, 8963884760094000000,
   8876858700105840000, 8794708140622240000, 8705307513625870000, 8640188925968660000,
   8573579242956290000, 8510969612157840000, 8456911634943780000, 8407547833213730000,
   8321297326780310000, 8248413584454320000, 8186607020219420000, 8133431563615230000,
   8088125513346350000, 8020582414848511000, 7990230198852020000, 7965337075227700000,
   7942544158029911000, 7914519740693170000, 7891402969399030000, 7871550367424620000,
   7855094436870730000, 7840382232062020000, 7830103783017101000, 7818332663434200000,
   7781572584456879000, 7773000348732790000, 7769853367639250000, 7761235769088209000,
   7769492825835530000, 7758766102124320000, 7833475896538090000, 7834966566730860000,
   7851781306259540000, 7820452299307989000, 7837924452294470000, 7876642435923270000,
   7852486321054670000, 7874523692081380000]

/-- entries 50 to 99 of `FPBE`, Rock4-NG/include/coeffs-rock4 1230-1293. -/
def fpbe1 : List ℤ :=
  [-5843333609897200000, -4366446024615370000, -4032976250053430000, -3944378896899790000,
   -3923089527990170000, -3917411446393940000, -3911383767369940000, -3893773005107890000,
   -3867505274395900000, -3846865281195530000, -3833545976085360000, -3805045359138350000,
   -3789441974335400000, -3772450947063440000, -3746485890057990000, -3732809547751270000,
   -3714856806562180000, -3696639884134540000, -3681628783900940000, -3667543744900970000,
   -3642152018859080000, -3619693167595170000, -3599977061403660000, -3582349310764630000,
   -3567097375146450000, -3533051279831490000, -3523710682800620000, -3516592142745250000,
   -3509550112347940000, -3501277237375970000, -3494473911050240000, -3488391072604540000,
   -3483477283661120000, -3478768422278690000, -3476482454861290000, -3472344828787250000,
   -3450061040271600000, -3448067204243090000, -3449483103511920000, -3446967440115250000,
   -3456541999167750000, -3451233090871470000, -3510862513397950000, -3514430517062400000,
   -3529641476555290000, -3507649362860950000, -3522859049849060000, -3554266310679920000,
   -3537131525958330000, -3555348445204640000]

/-- entries 100 to 149 of `FPBE`, Rock4-NG/include/coeffs-rock4 1230-1293. -/
def fpbe2 : List ℤ :=
  [-3191729111777320000, -4234439668773780000, -4850906251060590000, -5173815829254870000,
   -5302637240700330000, -5314557767040210000, -5261426436895430000, -5168763501922690000,
   -5059356450603800000, -4955115566831150000, -4860862763703170000, -4761318946722180000,
   -4678286536909990000, -4601021210126900000, -4524523521645610000, -4462022557149370000,
   -4402344257757880000, -4347540909772420000, -4299054864663390000, -4255040802824150000,
   -4178686878353290000, -4115065541010340000, -4061739100813730000, -4016577730730810000,
   -3978296665492060000, -3936658587530070000, -3909709581565620000, -3886805776003140000,
   -3866524305471270000, -3840997513069370000, -3819867083094510000, -3802028637203540000,
   -3787038944031930000, -3774070833441770000, -3763568767133550000, -3753702535272940000,
   -3736297166484690000, -3727647394263960000, -3721381998886850000, -3713405820246580000,
   -3710725310431180000, -3703923563393810000, -3718609745516120000, -3715451022524440000,
   -3716159677225760000, -3705616486269770000, -3707207092665210000, -3714087732649800000,
   -3706204399744360000, -3709620195398110000]

/-- entries 150 to 199 of `FPBE`, Rock4-NG/include/coeffs-rock4 1230-1293. -/
def fpbe3 : List ℤ :=
  [4828535581858760000, 5387706459097170000, 5763098353506100000, 6011422889089990000,
   6165106186327960000, 6254945511947509000, 6304045544673620000, 6325318615178580000,
   6330015929869059000, 6328917561201390000, 6325686150190030000, 6314918923804360000,
   6306923911607780000, 6297780073823640000, 6285692917380200000, 6277305659466850000,
   6267801330513910000, 6258466571240801000, 6250324253852600000, 6242725208556830000,
   6229129720956800000, 6217356480697770000, 6207206346229550000, 6198359536533060000,
   6190763683594490000, 6178801898663340000, 6173729751246710000, 6169581459878219000,
   6165745412340430000, 6161032189454330000, 6157133432051780000, 6153767080825110000,
   6150976815074490000, 6148466559672410000, 6146747803350340000, 6144721794282550000,
   6138049057456830000, 6136612416789360000, 6136163098023280000, 6134696447129140000,
   6136346993069680000, 6134443594095160000, 6148281319533020000, 6148605640192339000,
   6151709696741000000, 6146048109181080000, 6149264689231070000, 6156289219266960000,
   6151954785686620000, 6155944623129920000]

/-- entries 200 to 249 of `FPBE`, Rock4-NG/include/coeffs-rock4 1230-1293. -/
def fpbe4 : List ℤ :=
  [1092566971109810000, 795300735974956000, 609198451735942000, 476702174069568000,
   379946019218839000, 308158334011040000, 254019467466823000, 212476873553974000,
   180092360649997000, 154458635123923000, 133857277406643000, 117078025249012000,
   103241059659401000, 91706907002129190, 82004475744989900, 73753741924993800,
   66691437869686600, 60598969602464000, 55304116525735200, 50675284650282000,
   43008026061675500, 36962119834472800, 32110383834064900, 28157781662082800,
   24894446781615600, 22182109485941200, 19879550349326300, 17917978186026500,
   16234090541517400, 14121292563486600, 12396333610369400, 10969848351587600,
   9776444266938310, 8768150824146960, 7907877487774020, 7169008348075660,
   6339007824090200, 5641735100003840, 5053010255475970, 4439029412099620,
   3928854249568970, 3503760110870390, 3071192012837970, 2719179033193800,
   2378918697888850, 2101700952340330, 1837668077835510, 1594988396645800,
   1399886359439280, 1220629939427580]

/-- `FPBE[250]`, Rock4-NG/include/coeffs-rock4 1230-1293, cut into columns. -/
def fpbe : List (List ℤ) :=
  [fpbe0, fpbe1, fpbe2, fpbe3, fpbe4]

end Odes.Tables.Rock4
