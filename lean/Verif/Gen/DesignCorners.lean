import Verif.Lemmas.DesignPlates

/-!
Generated by tools/gen_design.py; the certificates are checked here.
-/

set_option maxRecDepth 100000

namespace Composipy

def cornerPPZero : Cert := ⟨315, 280, 27, 2 ^ 254, 81133289145872929008579816786204874824808018112182617187500000000000000000000000000000, 0, [
  (0, 91549140435195765684360245801106374707352048017392247829116205659379344522624628977934110934813123574029417953886200055898214523380621395123325029158824741833543445181974335852278319828309671625198086168717922660830424578469562758393645310343662620964689016547460615619640179051704795902789723195411694527207092338628693419817553082067350047736804587535546157178127735276476696527093920179233024745),
  (1, 682094249391524238022865696259635498429477572570683418431253773416424874384884752168760530164986908568084458133404747680000649993371390206393147486986195145209078533562106445854266161678230147890013573445188809758736763274364168982763571849497826941103770417084740990113461183648131927235627840258841632171214441475805944135657409810277424794282391810418771398265724043598188767636251570174),
  (2, 5081998179789813146165502788570787745933812652309860426420374016586131411678230406111184732361099308139043199525065652075218577533471070565709539973273471798342984161900273034620991351237439208626999101560042261038122711972723951734862848468087683644407097306912551237123269241651407471466311786122151216438864042531910123539879796434059685838398108832759453138556578518526836347291),
  (3, 37863837031944194034975042854031829133136664720698151189240619663790847448097395942453741923553597649097582284174086630143679786658799698570930585075801315405630935766158682019979034499297641974973787507578336026857988911287378065987910794925654774540916454418498288289443170039311576578339928035532434441812981885022591195645939268226468353105066360054454945273857223065186),
  (4, 282107569515289321802370569512485184767370408182577425161306706546178813637037675714983163703107169888155837785763962075244507701571898051895432674952917142501619144907575463128040301910794335393561282451616322431949193636660488672722771322338085208843558772741285364570061315667019473612442742573537319492787646691454203479789294122628041243291566850251632591358063),
  (5, 2101865183675954653340358805004396921153146089483629354546269078151732100898912824771652466619703519673498877949710487547506575407859570718563984369763608534989762142348287247262079398220717974548445540579860435713700330277927574907750383633200613219485230061423600706657640840309073551343022826191928426298307155792505626120329918862046515613354036972724626),
  (6, 15660115954845805863591721691223956057080224823084692318337187870403931812340088535913809660547632562962748959473074794136281967814247026688151489411383722554998088262021281185351788528098945039001892461278592697065399671621568698667032943287108595384631212728569632724897027207195408079379034401039457794156921359421115986643650039930085078564420336),
  (7, 116676956078751428899107289993941456504763847761487158524522038371924909686762508420372651962146414318140217333931497048389578527714164146511208623439482160176893811656107543179700152978398470677282392144906571839121292423900294145996318911558432917194043056940776853677915836484531639715871066965578203516205467839080529121970454971908217238),
  (8, 869311065068479097627902701451938275283305702816599298451260015151352254609295040796039900446996584006424756903268676834230474127002352691279137091734786126878958746937857973405760274582846883689053893517011966478993556424201738370619367910029920094188211440270378658504816156649342855457369063417284174688640420464835581768303807436),
  (9, 6476872154090397787302007536977069640780282786612207430983036872845961890162498958662861136284689483653797207315165784065197704800111231127246828326647312047454420179701934690772431526320000515745415663774168281177753249213219640975049187564412589282310126335900004577025577243460731787850438347484054303914944670745446394559),
  (10, 48256458000022156441971715815194469994159659643562193445734954667745574063258890916742400737478872793661632694828362132173371592975827386240572323540805984483221355604770502639273424652136610460680248198724585269197184747534680496110397295493054677499058075512845415296987928999912560466279190629592411194264007870130),
  (11, 359538629651234719469932584577757641629574147191362034125141467406552435905891129516991368394045017786975043318601875528171796239250018221468044419369957262892867346552547948006629053912510345154182027020792355672014764046403017775855400400100151378258139853309588964950625485400948617850752785580874622215699),
  (12, 2678771537924071546419952694905978751402900719578281299212138811261518365173165646197473070920141448544287340231823095868963472152524480435019892920929954502053085585564048464520948261145746047866532578900961680746755628521300670856841373262804028781447495294935234853282823220158092241437275495991823),
  (13, 19958403244048890072255974224999388690314447280602762842268810124763838321548614987249461373292818528508413110828792201699974349611078997838534033397952366888106266911560111211270435248963004436800592287911651537871636010194679803652834370065806934508301767935819531985358669300038065598012858),
  (14, 148701691955692247094631003029639934699675216101460118827120212908478510855630644757269296164752366185631001976562624467823299822406812312232183869066239576892153198917019874954881543888343852718236416952864529363439307684050359932507809593094460234974024719391263842051727999743891763),
  (15, 1107913940814824753214649878663122167641528026006393538585104243133428473532577452849261110407424114678223282137772855186363664621152679495026799568424692961665842438916914214058757946506472382347390933399980622125404743490898744425441513961232138427205414264259089632552809869),
  (16, 8254602110496347794045879532867090170549928383811549270178161446809115132542263870158639090418905505007534888009274573483753701891472922382461701789310419938913106453296729483801325877144785351312715918475221484162027529361359977720062132840996248569456612231454889469),
  (17, 61501578319790570393546518201722368364621076739418758144933055687848273901414125443632881548473151018635616199009683548461278794216903546355164057481621618506709570613249442183827529773867678392964499322354816731435413730248810112175473496599617255994272436614),
  (18, 458222466109622794358769518307531703257589843660182527554643089723973485566854701957600898281687585418700629110399441339198266763285175448431009321398649300712963888508397190473315169169431281434679811444065108621973549722209181839053673749487146663548),
  (19, 3414023415087161950031467167529203561607004138986075947558809934366481443247452788836044385082690730602772651584485341808501022280238293725401591775736854127294325087649393160302240275894480074567590513550761275155569504738357959159908355794780),
  (20, 25452519642146764079302504910591194701710421864003846815358106095260701084698115447178896295972221814264235750972410520236394912323928677941849500928781335374731800027661327475198627874721255817004652396337122358743762749184179257857441),
  (21, 189516370101058373559558790166142821546432689211313772858798514195429759150149213012064454939800088337397322402039691792718962921974335095788927522150931606617562516544702802057433051858505150778658493998832619951223015160992539),
  (22, 1412006989874380629953434990094176095324998268569363451442111362757459865496711265952430312527353943561570911798440982080244071357501642075557190871294880636521321865748544813568556316417257700164390205460335863902975433),
  (23, 10520271881478880568991862163649321312643574689100410427466864566063177053112114641354835977400951098572134983656513408693079647380974725325806579192998756641037776634791498546854392800321907129985092242763631354),
  (24, 78382133554509882397889063981542895083454062708470303024849780837303319792662400437956858343561114644415109326728219810051076936176809328806183478153445665065877707560318589216294967824827254330389992070),
  (25, 583992403406723457559116661411098354186520447645115129834784737772567409251105957535757700567083767541902894790549964805659935629405847205007629628627880191686079849196698239784120695266006815086),
  (26, 4351082469573046695881461064600187198717299458720647765955212761415503125906671172657852335603303073799908812264178073946990087362457611479838180816398889153106797401180287618993397082389),
  (27, 32418090623416354476522364203633272638300802251105366393589965925607101688146071925266705996264209111595004499898069111072175913823465392017577679401648367380181490427725087080515),
  (28, 241533942504720112656812010270067926873626644669257016175212152175305825795405345966032163998601269975245733423764889232370430756148094757605518066548830135683890763924411),
  (29, 1799553920063480189229150210826097595717123440201868268273476807109535971749296893916889919768497352847030878333470950421193611395095070160106997748710259839325212),
  (30, 13407849186972905057624482505907233744371584427011391765478968490875224033644911739019361347334729580013889830293026850052678958435671406828097581273784361),
  (31, 99898352434151156146051033033556859463270325068723782337871810461766178989537620330748605127617232929243663788776767301866502879803466391191412049),
  (32, 744597324329519623723766986016390066572379778136871933293245557111961887601013008972724926481083954707203809028384979973720412480350842914),
  (33, 5545203499865941166824347928393499028895619911422557212005923945268767852924560602239458327385836355520866494999483513231001283077),
  (34, 41257551021935923575384811458793044394369739387462676177750812891270782730662981498766295878425646164422952211740922974182),
  (35, 307828175702830501923897927075223006788628544463933413246452577598269772841423853718025883938205794544992583035913),
  (36, 2293498633077967926292851023936443081413422111153106490123665048966628375879851916226742449022042356997710),
  (37, 17087896414682030128634356140616857121984825366386074499217174476863008261114401741880591871243168),
  (38, 127314749469474182491260440205163189187532852339640814805158475431030793365696681049856510),
  (39, 948568802099482584679577054121816077735519799140399804749772133559739324934956020),
  (40, 7067388311769683544930644736601532084759472304138539766891126014794225093),
  (41, 52656146226597454733629858021449536716636063934404699257695270894),
  (42, 392360414799249744208454120518649565978583245842199814261),
  (43, 2924562693410782382713863180902455455459629854777),
  (44, 21803581724097098258459433304301533822954),
  (45, 162161562976105013934172733372243),
  (46, 1205191732046454126265286),
  (47, 9010555838966246),
  (48, 67220337)], []⟩

theorem cornerPPZero_ok : (designPlate (1) (1)).lowOk (0) 21785247000 ⟨253589504000, 17006763200, 242953760000, 0, 0, 75553657179, 0, 0, 0⟩ cornerPPZero 0 = true := by decide +kernel

def cornerPPLow : Cert := ⟨315, 281, 25, 2 ^ 256, 116001034671422868687367159199819301909981421760448348712921142578125000000000000000000, 0, [
  (0, 288878157640586302209670746293545626295578633655027623913687518427475050120012249247962625015485922108588418523618160344153113988765037622994705680268901947994593345961687660160849095507135870716657537149942156664898093805712221950425590399458886957392920302578533050479825086807171047081327050626767989036911494613171113530526300701837779830945065697736417665107838584),
  (1, 8609239984768220848133288213418293782936889936179745909979567480906100577292239618936291118433410526863269047435035198765508461452720892001153025265942746200636093284686324271116410954520017904649451222141409409474711183581892513056485244970042646624827355148475195064842119847602877788309010320268819037661026114821506045761930394282053228696143028421390586144),
  (2, 256575345539099599365391976041146927563455400949112949072705730226817744293010434885727138393925206678907957493175889742241130850871595942087306101378431611018827218860242350173819716313347075540035952827302909557938768583138191099202302945687524967389725013730436246473885899769954808864881950516056637825761618193617808689349943050206888315997252069832),
  (3, 7646541164490568618935107470784989820821744231853274973413518972093330926982855227551369581014254363836089599357951817346790356285004012667059980689828302335484704368060710892735289012453205767020664205470702630021573051041291816794609858171495302900229396350238814935247165417494534157572766807575670927932548093317806705222534110242040827220980),
  (4, 227884684934931058255884273969679767513923175092139094275689228318825196518899584490820147564039238192926064294952760443915324272723799344367561897133890099605376548653318352554293710693573372362099696495358780533678779437782923466354272327214634932763790269548991708869624608764022175459222172873008257364312493606287508546277306206908938),
  (5, 6791492847649188585754760324051373228845690938596102424730025023601232668794722105377984226760198529819940981213393534306629176808197035557327176966307773165233948462716006210893112113731758359329981653885970810967527575688730762448180981869728566751066714162052248288918423072524653743271498164834318066136591549655854486938014420),
  (6, 202402259339368003182255039335828221703937379675987435127397815777285162446259731575619024631928172652359549678779887102877106526907531797338220508990885614682039395099953008222446790193424356016689440928515975065787068213521789095172685633103496193804464545938702535335709951029989400787224700500301803450473736673859097809),
  (7, 6032057384829759692616910914654380729911845316767318103438475074281012853227578545579370719458933414331528110636885465270036579219403565817382213025799247633941439376088305334421119393750205612482012097316734349281282447988314431885562503906254749011965825931960016650999663631378191894676750485840985386204743251372),
  (8, 179769318843774786371496645052861593065018812321642580730867162096058023443905185978010760140914800217149891991094868129911004969995820062838253471169931351161345109602119915671473034687768594611762144015844431719882141130802555174518545503956098382286163087862557689455711505064127264921661352050666946719033),
  (9, 5357543195598566125973959119703221114427411923457461021270396025777214171758123710576361140180483482833645217596955493261386902081618256490456077897582346030409370165159404967193349892732127403546427979559201042861182318257973036697865651297668516571040307010986628005909656809739240842744576330411579),
  (10, 159667229521231833874403212061620387864929792984052330889427148429698901276606133906389103775365881862344085802639319712291563838039721745934762467655729736384477968015586428050116113662174051339609509379445177098279120720461300295218010401918898899133411267341079129166587952240332515668013933),
  (11, 4758454248941893395018673302579533692149215727569232311535007059716244505423045684795651199495101969099115433563607686617349277586108935311070484599796734299797807639667753616497690093099560884867532361929302803820494380545232993443659505031576582287952843580141065221179692933570938581),
  (12, 141812987594064873308499851899729183082259170042551526770902722572911603739702795018293665756088348936780643406001332696044217461205765901349001700448947820847047601346311789966460702236371848666384804149473544458885297020608641901093668982538129211823848858168353949703126427838),
  (13, 4226356375040557185068722125879799815483664573507056438222130551844185070450148812167458931164839983662151724666473490237723469522687638760527113382236714107337631907363969417265494183276352595303769706418807382556072370522595410449741894278387558257893258742335311845803),
  (14, 125955235214250003847521197070533363398053321711044014905385986626650314053692729245135470251146400918250985988975622427659359956802686458906959343086917048565427683294689044057962921247922738631201714173039318284929914957459398416579908198430525276196576872489894),
  (15, 3753758526273071880595725986897194674159741698226100260612269963951353861955517167486394322964253143746031159058131447398055347324019109667067436413789138354090385116519937811815122191786725069442115956626073329934238329418824819572759497465002378925496989),
  (16, 111870721765550133009426001666038450592077990599851149278627683438992806988416439077455225286915539665679868669560264871162748618158054131799057630378551037383276499888913250313436504553965015000046064266198684159306539719800978160370996224081036673),
  (17, 3334007315803699777906755741801054167641200166624879318290245491362383659318165792276379488972118563231015482821804528344965695318533807453712738349682132387046349501018766548649225383341194523539763954570969859940365471043408334499158244836),
  (18, 99362694766546562488094856933045033861413633236136198576395007327267835191037950274729015375192472693910768050446961453890651966710767359595891953063264828548365616629486303741286989023557272186082309688500935871284408896068226853696),
  (19, 2961193525629511756844860797200891951901528702402423867682145622597903746199206440130772739527498776485000396431061202999813112001919184181403097667511398692891632911661562485552992639560499429223971021195409793856076010349200),
  (20, 88361475048397640722414107571297497342438821438672279825224626372507380043700447790435380398787762548200300329699332436274174107690773070878300133825973357443023129787533960357879590605700698608472671358914848591502437),
  (21, 2630077748540039534306471192844063664151590762127252956780894189434523013197263598516263568954043297802750753965185249759144952363894332244250671029097099302597302058803567697954064146730922972393881834650758404),
  (22, 78381654096700198520939348361710109682316320674507534236520294077355154297427694826377251054180697568128301679786166405009647772205816174637913854170299969167104559371117489020241121556370569049182054397),
  (23, 2335974956752958371723646558452455889402472995088401537879275495693808025521471073771119702223715055909159263766650448656593775026088494386859037656404632034853236991357219964843376899244613364778),
  (24, 69615155022151368071475338591745864921716822825573703782195671169992842229787236409075397740852288514438566834150676850093610081623316752795913521007056246927189556006044267113952647197133),
  (25, 2074768728813697172999328245123921918174450036803218330240493983203436112577095467164882752645511381314153749488370859339455449332229504895449595486339749168753864199893087355673577),
  (26, 61834566587958797774039228506090549662211851888422493413960327962304844993765009510958344149555390067176737919720162080740031081272866671570660052394138162301960420321348299),
  (27, 1842751410711941487121664103801020703684886280509180066529229479146574987086098867096134310669314117157677184348658053079596465560980682794545293605067199025053349692),
  (28, 54918828098856660819991354729150713705219378181866072433722094287007319586337746910947724892940641271442510443071149610310182807267649020836431837173707338124),
  (29, 1636708620152246282461135086217687454410983623934960159362301861340786661567463940647500658956467209351437673732787106448112817517074191715453369220409),
  (30, 48779770545212385731153847757907116880689019047277268712003558637689835780496723850674015282611472942154048940870433060041118208943464092212224),
  (31, 1453722721128958522966664450243638019177586767659844044334513616281056305626263420985332836654632876774169989113514670248244477402864284),
  (32, 43356296942942715921484517229187226218186199625360906915670132018241013413647155293134267507453610219152253873885840214094703587),
  (33, 1291059333056847616025715345977683930005198723747782025078844600779368390760584432232507171401152775971881561292519122822),
  (34, 38369407332783901374800492260770707532062663902416859585326935328614961720214220189236850410670653052512731511285),
  (35, 1146746334701581846227942920558177754960975925895733509198462112742315797316231829846604789109800036459903),
  (36, 34176023778357244675944312330244547114837521077735119275769358483185364873937227800624709241728630),
  (37, 1018518504191476403356330314293171609849565597032470701801747087960549076748137084354604489),
  (38, 30356015215515461695435724014263825626382675966443062169269437195716436062367906482),
  (39, 904614508786650005450994899777053842271632970755258429478835132121661719588),
  (40, 26958845111124006070179488318053680892838181951810863009204552178044),
  (41, 803469477089544856505239098064090682482182725942123297842158),
  (42, 23950173253198023847038710512494415394339075994911535),
  (43, 714372914066013517632933317928128238387449349),
  (44, 21316541849364463801754673487734049917),
  (45, 633068229025691357434817506243),
  (46, 18769282309611470311215),
  (47, 563520227851604),
  (48, 16818425)], []⟩

theorem cornerPPLow_ok : (designPlate (1) (1)).lowOk (25) 21785247000 ⟨253589504000, 17006763200, 242953760000, 0, 0, 75553657179, -544631175000, -272315587500, 272315587500⟩ cornerPPLow 0 = true := by decide +kernel

def cornerPMZero : Cert := ⟨317, 283, 26, 2 ^ 258, 553847978375356476524338021180633103436700455093383789062500000000000000000000000000000, 0, [
  (0, 162623942964916823754395016370730694062556792627971245138548891104544771154594787991691678534247669056214940171498527526008684690061634197335042078290121617575364209100695944619523232212376594830389284966147805651173829248259167707032232988644721648244182353336705623245753873942636498563656829316041598689748732989210563047898752787945299038366172369872919463518518342160762014672897),
  (1, 2423285588099313136255666857521693320014428982555437760629488395222198533335250437135870434552094622396243840686094845188654375033409287034345412104325354625480702089731284103624570985038436301270967187590144999660297807290926135765569424054027547655782623607437797499325930487567109098624228917350943462413577902384194245059534222004146763909161129412202662839106075437894225),
  (2, 36109769166995780710215372704292734265542462208203043947063213515612461169589317398307777022619270968036752558150895036660212660553718842244819968273510251639602958196672746976887470372512116994206314332163825402088687787593118862301311522509923528238917668952667780869640994817297813768740712355655689894508040204503112353601209638902834821053161099542744655234007157),
  (3, 538077491030034135434260557655881855868435832980320512459624015027470308089097103551098418942621079387650198050729033057286216009485639816045194408425533424916598298899375848456804351791923813551697662731911363719651613322200202230883869655068369813263458831112587685453435222436606737841081465900670564961351009125334533549195056462206908397455368652641985381),
  (4, 8017979428619655004654236997006563184685048952405460364514947161487792552933596875744122300830695282633632792606202317193307550202533602670083927769261441352330220944782515530272586924714761343650949450249700306038335574076706311772640529880910774633281977624793334490420179985453272651421809004280676378900377110322702274182970899148893031451609486781),
  (5, 119477203914816007087442830160357999573425187951407736011072205923397921798528288982638049124071515069675260761723595594350663323656931474109609623464116046972348557415331077804591550959626995205170094589061801813649340985977195424208833893419296982727081435256733611366302268927420003059653684840758937063560233930305705719221193210161050304073),
  (6, 1780349074524879561177534314399331801733749925366159320042690738995366762692855082284979368450571786068787761077529519007689814232446820075116892476907612608886837749960193763426297045837030980368016327568258247090695965045567918061954300862984661923692736406024283078288334794773232653199148499643512650890864297963709154003622567527056),
  (7, 26529268540812724250220273649682578470315783103796233535447926727767457969143029935788623884092376861065290722736528406259486468929457477220329284927482580500602027542844551708696825308010911952661221560316402177344818324310760541181263481200198660998695150395974427185545243519418871408850121447147874562781461549191492359858448),
  (8, 395316906881522003564540649200716293905910597798172139159558977176201649236314995121359026753315309295811368795756775968796233356013940876616557509604729495902710514557596068232530208464334571951200628814237829264565901350350491038417797173569401985101993219688997941928613941766532881413335488198334678981612066661346526),
  (9, 5890680952094823175140330928574745266227582064243735956543074465000440355258431084900327383098296505053910322251635291012360967890917708297524182532857756686279871515674173875085657603221013395895483238694216308644312296218925281938663101679797810607844542276023473384681596671321783428943305662968617617160279847),
  (10, 87777986408692943679397269019108195099645585779007314988122460696425125624242218647681982956642844334300589835611276071634602366954059406328046180690520021887856046854790733344707804990341687749261146154878166756384728032194837875132956594748986659703347604274532139785189946939651374647381602775511000267),
  (11, 1307993924747302289000112846778455303604090001866330429734629385743125304422072768881245790726462195005069472472370180142500929484039067334689525605890477904226759057162647837129551403925573050703889285054153564493201133495979538134091152260673314620473062654542201495376392206152493832010590581393),
  (12, 19490628313232992425562632780946125143827348975335514988521103727400602632814802728465898414219483565817701361952444219539456663115507733972094225795388725926163761167915074553785221091548224596319889362304677196856385486631308337229086899750354104849971970819966430594820823400142077159716),
  (13, 290432994264855868005195748522074895260145499934785291381522845505664790313593955996557846991495992266434080945795878748214583687145166186529594193931455788566018777733124707663866514910301692894148880010137708604416538021686711869939812995217905507644692277264472928992460576719968),
  (14, 4327788863552449166852172442109508749581740592903158867147904029560841566777715360979214599334852470005611674650524246053801504907203688602237070552414449123574483587193933934004575535888948669977677139765916458824896768002928442171167752235611984257464298318510767289354591),
  (15, 64489079468733804924073404701195787712169190208729646891479287607769872233120508627928061457820411350220604284906362821153638678231375905034941708580154530716366125510158206506134250287959469447334306602349173975710658918495039897311150776986282375238549609110777835),
  (16, 960962168406453802050253818947014036949490601826088259472210976493283163966034058286389213143096301072704221434303468332152064284755956502510753942195165997580615478714681406638439010283999055791581728980288973325620335378106239634498608189254112272162184809),
  (17, 14319452172613945633921829166409731381483271346527396116869829937465133272866757223336181460650605691460538174586091941289492544902381873918766961280803848105504813984739661858580437127143175691124788817973641216870819017272930351834917102858424469279),
  (18, 213376465031712437200060866483207337268356218835616705866816335556349184418021135919403385839903558874952670711004597607950580218385417641519367112403674145476102919816179818776585155147031804356140554810775231602612888227020904511865300156160),
  (19, 3179557100429217559766227905442104411610569221020864331136266319108555321231534415742814280122364845974985148731371777333348123096514959857561858175463710982394277300772722806283175282591619465416329752160825607012160725466010173697040),
  (20, 47397036662958379053961205858533482493594961616172814003219921012923015278069263135808839580242647981016443621180097314849652291414280039369075040100259179185956244865853448891314435537748709335938143290020493915785050605285160),
  (21, 706003500197326334098292502037725745153276527298322370211500819255879451320516650259106374350327460772226456131221203893415954343711695757811144195324196630329068310566007820128863076526167771858319247538164934942380726),
  (22, 10520271959861015291486568779315438049335427989040648493342071227731321957057686824606704659348733724104507408100282455406440534239638171457129589148075547019727800574584698604149763025519610909023038813651442339),
  (23, 156764268277004589013555180718234748383394300774345524509878293079025874891929754605513738073749878868489638802263902638693323687724700094933490244598068132580593651471711634915707901101366918583575611482),
  (24, 2335969631031223967873382281038682883730445813750408955065583032426443576030663569029162435979152878776924311170722029330001887129830089158743405140807908839149644837017178108286831915270456937099),
  (25, 34808660015929102418920133725385112818039146270609035418426581297200691352486454836324623095484675634244415507581113584319921522554362453229457787217003351474005538764317296088416904316455),
  (26, 518689453839199281020762528857366931707250271299616030132984241471014765863266848444608387051554158518141222195945495495110546265889698179754468150107584856828781217520294287336098),
  (27, 7729075161206711545895971787830694492269311417633533926795961163754059078322367093236219610020794904913539884866371244094046699840044872437769618251459205339422656729103005),
  (28, 115174388159311391956426280637500541550046794197807574232141842855282822984551333117126612314430379558621571905254124939036835845574529423985051335330278195634393834),
  (29, 1716177191779661789095140787603696327843106717785758150741670787120220092256661397705815860004149052367922469689894210927748799080895130065363179344143219310),
  (30, 25573424714768972067283576455636011850288514520836343997275923475843675218133973403681660858320598858555443317386830371201895850405152110262426482598),
  (31, 381074166882630422005455316017578279979801448906069158833296000947939274158108549246286723444448437619104862029787976879427226758356060690006),
  (32, 5687435240816482382379711664642420864887239390273545786072072836864805903565793896982412485330378177333821736264253328640007251114035),
  (33, 84604838785805985816214153621972846204452181790566348658891188117193675056056201697909829398940259253172040668694149324752174),
  (34, 1258506768815157142880916053440927295869736702710934729301051632867242544370097163134469349320359235615728115168426244),
  (35, 18788340942158762767191112792427963527895736464122396074187189136490952679250918839292389246259135394590540697),
  (36, 279968096944075268018113267308890276072855837108528555545040667492537495388827202568905677696802775231),
  (37, 4171849741698432982237834741307650149954197363682516746894402190882778195766699003133530495466),
  (38, 62165405477560057971445243676120790093454679305590938730440351837364318785936218675475),
  (39, 926336727702022462657768185080897660455922474050386827147101199476128538067002),
  (40, 13803492899269200305011394397629762596725262314832014249976073117870731),
  (41, 205688072730141882673075711691823044370491241139650557189891285),
  (42, 3065239856713542479658352403957520839685014554513335148),
  (43, 45694328314529150101582708015117476518299362163),
  (44, 681155712549239081863939491707321470598),
  (45, 10136902989631551091635025849110),
  (46, 150589920937476433773110),
  (47, 2252644345265647),
  (48, 33593225)], []⟩

theorem cornerPMZero_ok : (designPlate (1) (-1)).lowOk (0) 87140988000 ⟨627381935579, 455003133221, 584838959579, 0, 0, 1850118950400, 0, 0, 0⟩ cornerPMZero 0 = true := by decide +kernel

def cornerPMLow : Cert := ⟨317, 282, 26, 2 ^ 256, 368785803894064519205168123690271312478161997237716246414184570312500000000000000000000, 0, [
  (0, 162623942964916823754395016370730694062556792627971245138548891104544771154689763771570635011817319467826076010633136196190685465889455637392906577350627798911924129680055972348174514931423161986106427180313893938311101512379942909117072403642137610556870776088429298729428078773554895915566113399042954070468340416282249604457383545596187802167388649439767020999923538714588381504911),
  (1, 2423285588099313136255666857521693320014428982555437760629488395222198533337343227260710534070036125455145124339135297163185496161018721874851051914635950899392490668326486017355656415944648765069157853903785984915349212441008465180910851917291643127539111397317380973247400707133847139652393428896292852778808199712093074652973498415346792460826719982291525179836134260723873),
  (2, 36109769166995780710215372704292734265542462208203043947063213515612461169634223806101784891115961973988530674539728252169186011295984204164322730947268335257226566210628008693839097234313414480084846664609281981040314169788751449745234785042557227342251466697952661145377931791473032308357253346543396687001944133120418424553950684108598455529759453066936627173608018),
  (3, 538077491030034135434260557655881855868435832980320512459624015027497633949542666026222191672794564236998553731197611344105276452881257873597338236616508489694895237013777301530683780083419923299164810396834903056358651092586228859805694443608391687956880008638676531134006356189206612622402511203449886819257437555334211243735873282216905325362327688892357804),
  (4, 8017979428619655004654236997006563184685048952405460364514962481121414407752857626993398166168641406293373182305398530108117170051968472202251198083739097612896815590532442352151052563621989883017057321140507459236872258689377439168417139233212102271697305890435053880864687595262012591669103189107866906639214256193612987434425629270553780941250978009),
  (5, 119477203914816007087442830160357999573425187951407736011072205342610067167789812906693383015299401741469779265827305654394270205325502074359370379931614885164726000789140339403659318564407663626879087881609607431908933532172290707153525463412959634610514671745971441361587180832117663522522615529188494668783279499561172390008165844190307263874),
  (6, 1780349074524879561177534314399331801733749925366159320042765644363900306608131888249977282705194325285897254886406021952653479902562105772925024257527458502321312781624344722601764501796289711082088810891981379247530798576150802171961044086446321751269189374395240286297170775511950397814508534997795804432441844567087166646157128300428),
  (7, 26529268540812724250220273649682578470315783103796233535447983091220117242753024912747917415901512334555542156665115115448467586377945484424274688413968135836150521758698506912541794368300811806755566124816960885718982940668420195092006034251511880089156217951273588658803445587411839816618368738330121595045172736630286251619494),
  (8, 395316906881522003564540649200716293905910597798172139159558998317369755123512545181912731624777772320372031581982801250088754431042381567050540862966774585742754989221747118653704127297263914753851883538592364449938790179243517001896421743680389263226433228630095772619747730027784562603467228010307297093410141179755958),
  (9, 5890680952094823175140330928574745266227582064243735956543070426915316450044363315244745262395406340112265367994529696185905721007115120735106610220992258998942854353813131393478157432375220840006901948312282863024575424134272980044969289841616754380681022121033798458818665604839240678761624696058606714236336146),
  (10, 87777986408692943679397269019108195099645585779007314988122447040347452153362818172199501184069979722323845953522067325478509901381393519363471033518133602817734545291224235784324761086813312877781967081247139920382199545631748434378204552110771874933426539260439654117292462179507564521470757615248868020),
  (11, 1307993924747302289000112846778455303604090001866330429734639738380902958032552061113952878852250348634185317999419424918095996093060784867080576929122959974684540861014038344141492930466667689309245095081207708518621472326144528981699048076546775854801393862610483906271950546885083560660230409860),
  (12, 19490628313232992425562632780946125143827348975335514988521113961312311434989808626552371282152676159430067271190180290715500269197363508754723908499718239312986431651902520321664020386105912201894195377561468970649852880978026918408374811194071391703742455611159776664816816912472574743122),
  (13, 290432994264855868005195748522074895260145499934785291381549996987866414040213575402991788492251011260480698302712562715124348117959459047650323885210245961018830991699341844037158731750931554238198575143029507718049807058263469459196441010284406127375753210555898430833326349727052),
  (14, 4327788863552449166860219974110600227956393652033659773226126530054409958861766243968341260396932293079677791228938476611947577562470259134370386722124050141017963388374505779022096007355335820674596865132424867109254545199648620797984948501956323019489291548747088435428516),
  (15, 64489079468733804924313239832197139148425352653171921180179311507498753668577029322978412057048271364066419047706099470994300596797735714016127896846462306814313172120538177110355724350701613443695530268472109038106517879244632333980034675456371300779703799363989326),
  (16, 960962168406453802056701960671504198892591622750001948217499687147374543273801055170310974925378773849128552176060541257910124113308348195607286423940233141124817081766643827256030453240252747177144395066442914361617157203096206488388306056443604778264263879),
  (17, 14319452172618823074423365506046956959239141651253975382405849398741084914718272590073724796736080238060680365327995602216406961976209551457625433430773704826409024417510302135927674890034567265619624807785987239449305448269832099690129304633283528170),
  (18, 213379638229647288404261927235997079285314615200434159077013803320889680122631304660125604957907475646597025885545823085822968787227018099755731235169326511497602597141703982552041137118389221396990523294049880544769273617675701393552638402186),
  (19, 3179556247623195838207464686395645833048270482542790675518858819893129344327964522766943697336061028258517130653641508329300509979380045633942031444467510575467770686037791463354013435178532760897023579621774288094349483593145342740639),
  (20, 47414398700774413123456260918383951688580072077929947015410153664659844190519934432882817489194191350868005229900555356745986121890738377775010707695577740753697267722816749401972937990352299916824293047062532313351550753429057),
  (21, 706002763778237725147456166013742861270276281315329833801110016590259159177758007140097140381994302346107781075215242375037695720404108567977958672679104638810310531611942810748835206683848662229735844070923412816223336),
  (22, 10520261926944238826381983789531811744960443551633634334227554371843901891524247524434982827732388670785250592866353058962329632872321637024281270751133465986218213691661888476667273993730812421406383085755447527),
  (23, 156764291636591808986807062409978927951542063697363136206364782060937345484910027620541431159704981561231867756579956774641102942555681347855474552885944006974092920708084722617114548382974596648052589550),
  (24, 2335900083329968621553197275380281599994031675563657921225206434324216706296258623581063519190339704106002976800848040106587069613422741471893351976618558541719383502461007860531103653531774482037),
  (25, 34808759604329621827688089021112551780866029862762931346704784975973992506671288009738586648002600053037291996073817239738319858190315747213219350849716585972399372109443976291736812585807),
  (26, 518706998839575201396937804242810421332430364197390563866701612474156637487913773747843855512963339896821414306717060987074945891416789683725167038231950192738467761904516141074430),
  (27, 7729079768091468133148324132245099501581598857313951358742193866037504013683034246158376551514382218541797402202231832310597467170550539298136673819266416784590824465071383),
  (28, 115177889206056529057875570794870627604858617156834452123530646280918114168467768505450990805531676254827916358702391775877593238567737618080344386551061265897891403),
  (29, 1716184914933537491180247734862885454573957754888685851426786960150281903940429288824772720086329973101211125192183284074555445248987205381342922328858453774),
  (30, 25574482572922139672154662028130440575865240806338135974695773783779445248829421948531823965920583484959581804021847597396086632538737753419363502924),
  (31, 381070771193950770913326921477946362643825864286380806960561887624233024741609621216322669254171293011278709800496546187270306513558440681407),
  (32, 5695871034181246888759918544764712959146951915238599712208445834561401596239456354268331927835542722432966088016764929971813077120174),
  (33, 84595954734346917191668471725426380815454651430534491143159038226298422981703310128500495716656141442729934599144278069648887),
  (34, 1256260735417620143152016174375760995342859001522898322248916554380271280272491562181058383890992449562464141174869846),
  (35, 18788292787651912288349525742482374645737075333541985981376403707412132413547476717351367803701241281974989181),
  (36, 279970107775715915997118696205636750892374557215394330816836554133789467115599547840292654240165813302),
  (37, 4171849741702203172664644066818164967846340063300576633552827650843660592477416689380842553660),
  (38, 62167613864269345052330230903591233778126642696571043012602126797152307420875899579936),
  (39, 926331565195016231767433399513608003058675456370285727689246458894610770234726),
  (40, 13803075352487075101140564732559450312423422343003621599489936802936286),
  (41, 205687858180819962977345364490042156410295083762446648570183737),
  (42, 3065530969570487320006190677159475874927900967081718885),
  (43, 45715809658444202355962430129331306420906590050),
  (44, 681724147358535771062594310168720985175),
  (45, 10132853389615227376937380305465),
  (46, 150109616541669548891864),
  (47, 2252973044576633),
  (48, 33666483)], []⟩

theorem cornerPMLow_ok : (designPlate (1) (-1)).lowOk (25) 87140988000 ⟨627381935579, 455003133221, 584838959579, 0, 0, 1850118950400, -2178524700000, -1089262350000, 1089262350000⟩ cornerPMLow 0 = true := by decide +kernel

def cornerMPZero : Cert := ⟨315, 280, 27, 2 ^ 254, 78329356613822261555849081776843781307016270065307617187500000000000000000000000000000, 0, [
  (0, 91549140435195765684360245801106374707352048017392247829116205659379344522624628977934110934816316669702623447346190246917069660461432371729407871644622801082349966107727699635871657753313795941188778015419211194300187119744427715707424114204557200454548059350316879244890695246360055971920271181843279954033391164311681178592552488719293065057458790459851733157363493280724598730569432892440492212),
  (1, 682094249391524238022865696259635498429477572570683418431253773416424874384884752168760530164997127270780062435592861193072772540010570193918841261170409651462525956739979502478118715963662876994823136815879321153958375473944523647824564943960095784693715452673752455209898080281507515824300783105445073133639770075582686297780385921197209387072241091102948261104557235134633700929758957454),
  (2, 5081998179789813146165502788570787745933812652309860426420374016586131411678230406111184732361372324443433073026905936763683017601690682207884486231358178211397774625611419626612091255179554464263627622411169153830877294142180361778005907686482279481633080102879383373729862547207481902547130916673258920172359135127260433399804266467080746113197569481117130933177783906561800830732),
  (3, 37863837031944194034975042854031829133136664720698151189240619663790847448097395942454000664495712668252890266072945270558115992938425819948782736946276694024945466291431015275192834829820663435643248347224174715653958809754427521662315023609091839938712363229767406761476249320194745252928098110552013007996148210808956911088007841270522602993127774599797085433588721651214),
  (4, 282107569515289321802370569512485184767370408182577425161306706546178813637037902336359978048170004522741115400622699358912298458998145361537283431750275810644748689240663567805631535391974401970739623396436958611442905630649470943807663329755324959558818246878182995189906093917494863337211631155384147940254724790902984811539462578413153550507626031897883194101789),
  (5, 2101865183675954653340358805004396921153146089483629354546269078151732293913707565130343862867585949958472459320410734311135111344949630891272610980026006061206005597058075893309432802202120697228373961381405801893834911397796451104079653042461925134560580863940732645486230908763132211333136631877237519745531919771261030097134572151551985084356671297081750),
  (6, 15660115954845805863591721691223956057080224823084692318337188042005683052892081270108523925852059395278871426964731289871671543680309561784010526700203718767159526923958879708135344140495068332951281802066973600035157956951918770114196159415201851001263893962219018881315862064078785103563494335963265470314239608238301218978138392752161649008727133),
  (7, 116676956078751428899107289993941456504763847761487158524522038371924909653744101085415673291535989711320079195748361145370209080210862756900315725150802719565517513786535653486943296138456231227626062289389798719771531966982315894818067837762919921789332109936712532702143786409414749486339996932592784633499780280787576011477126013196218587),
  (8, 869311065068479097627902701451938275283305702816599298451260015299935091245194527649001911322124810919147422692727585161050953084958676696504614765160453854980564162095180789103138859828616511701144505604877031933632881014071893768762953429816126420264059660144626476689649263079320557218257400091388215160330032058340618347548946841),
  (9, 6476872154090397787302007536977069640780282786612207430983036873829987113036465048602639190526355244698874291426736088521111758662494542848964663340808772607146540612096287912589325727775515618649451238727331457683683294306629846222936531270985698332387586720568577647997995548815304762292733547781402628091861691086037665976),
  (10, 48256458000022156441971715815194469994159659643562193445734954664079794054431990204999027521420349592567065980783558191459203776938538946990050450383511177787131620543848300564946885832014322555413614677200117839624696783605858537871801167111343832428744888286350595327245746460591564954483339667658782490154166584367),
  (11, 359538629651234719469932584577757641629574147191362034125141467242679313101690790536017322583322582973144596790489237541348355671610909619673928903064999511825555009080513208462929072613635112101412315550598740905931439358246867275875097507735652601882018012495672426324212471838990631829932934834643222622401),
  (12, 2678771537924071546419952694905978751402900719578281299212138811414137813267978869630536481525981332691523703154839205861951866184552234069247059826166591422888366822033538069373078371213263365464963977392357284848753787178634928678401905700509146622625526892946278553717748581977738942030378535927635),
  (13, 19958403244048890072255974224999388690314447280602762842268810741829134835228223465269762699147010888609446611538791881494440412295365409088661299189785626394006090242957828888017609007996911373948637500750119233184695677774535418192811380918702981975148772719203221429838569760390659434695731),
  (14, 148701691955692247094631003029639934701211526638242042813726642155651432708659836425991314601841092445524023891184702399584490927721302117924304533502248647846887259670505702583647809234310691134530094967326274587237875784437083128603333106782489997155383200486200908613808847650997011),
  (15, 1107913940814824753214649878663122167664319091431010321153437638493143949552025125643810934098180425657316171675726644875021523478141300756598354452746070182335035165891597228949306182750496770438318444155065434624482578592552213698808602579681509446093998403261308791146890455),
  (16, 8254602110496347794045879532867090171118856526722197882137620880633443154715967493961347648932999755100393287405228597608522930734127615839515944845909478969929569631335027528552269743930014784782318626166737854144693637637388742894505653111641660103189914469118171249),
  (17, 61501578319790570393546518202441014436034190218242063423956216279297914599775712927913679344940052753112805261595672032591086825327522573493211444660681833684587272426017771955531217037024060938467896984050555757020208446339063738641052661862982363093461559312),
  (18, 458222466109622794359319115777303227117676184606615716374197148745185549472623327445701650261093110504857611392787152740780797860967818103441052536048608287390606203007382403580380120804478159808928988652408282988981798870779888938070165903357728696462),
  (19, 3414023415087689942634493663982890651199709236886898792503111226060098664543348173159487749914989618222110627197150616299947629935630888569417951918246281082201308674826207718349244377859545926071051717136027259285154373935563818146521894619261),
  (20, 25453020344392767128691319115430693993961384249177795826214945073386713092945111442254749683735202697496572686959002468243126004837207437629529661093049040701570574853659525684852131004911212451241333873033480660619359779460477367219306),
  (21, 189516370101058373559558790166142821546432689211313772858798514166636711052782096950267524346585769937924557355102569941678161821111690359792477462402145588324301519046298303948626750362498443538714881896408481851311921393568134),
  (22, 1412006989874380629953434990094176095324998268569363451442111362167516331164046768439652200953479370864968458207689866603211063180082283490076550650858985548073140766182868209207524036228078218519368233843034183568629075),
  (23, 10520271881478880568991862163649321312643574689100410427466864556473165539289840807868336485430492673979235372350856910732097585566982185827527324680913311222025289909828905052816751545200112998449876195578124504),
  (24, 78382133554509882397889063981542895083454062708470303024849780785203521033314400471141812230078292773092069759327685182694841508665063650246101233882611371026466939847433621467919334352027178648055086950),
  (25, 583992403406723457559116661411098354186520447645115129834784735077532491520532945876952575297787315339155888459696145479665589124201687795284571077879568258156394238866975439326275394921673808531),
  (26, 4351082469573046695881461064600187198717299458720647765955212767199739496878599019660559642419196416522651612205274175196151916693295196994989344909857169596226338987640179965139790247841),
  (27, 32418090623416354476522364203633272638300802251105366393589962716806223257302967623411648703445582923985631891436733661385923523161914507331931004301449078769130806877587541167043),
  (28, 241533906513410024467424320834152507605273527551025663804947611679257111035210358896901217822095589697009020190991754648910193261216876636190467722045659298853473818918581),
  (29, 1799552632913930302879149027822276898719505837268030062306565156048030096472010524046659132956445546262988132324848481724644218954560454421116859359305727309859033),
  (30, 13407835201539532124336301809772176882374028765153111536865574997543632106568474627291125084922208597214566029548818578557342849519950060566466154495115375),
  (31, 99898444725230491100342026968661334577703961672113687830177061171751672342998390722557691652704047063311068255509102203357977826376417489782949587),
  (32, 744597390873607900068382851457904742386253174473450229474046539248527851348591465907050101486411130809947046169679394813232002334017842481),
  (33, 5545217547303278307792195806951705175024872022071385976642795792933956361832154269425466449554843939243664635250010763620316901169),
  (34, 41255715134709237859383990835594102161812853332964533288260233723672429417327384284491799858615867663076451674002192308174),
  (35, 307828175702830501923897927075223006788628544463933413246452576639524698403904872374868638767857725068531470901702),
  (36, 2293498633077967926292851023936443081413422111153106490123665015515512016674659159585576085075429869345933),
  (37, 17087896414682030128634356140616857121984825366386074499217173784664936114816214532685417490242140),
  (38, 127314749469474182491260440205163189187532852339640814805158477740079215961266083466838721),
  (39, 948568802099482584679577054121816077735519799140399804749772205455203590117564028),
  (40, 7067388311769683544930644736601532084759472304138539766891125837626824037),
  (41, 52656146226597454733629858021449536716636063934404699257695272321),
  (42, 392359385902097760153396433141894568069287669485605266683),
  (43, 2924527761385459789735222020748090658954344363714),
  (44, 21802912891360803277722575736894453050788),
  (45, 162164198434496275351286982303445),
  (46, 1205252656742078842387639),
  (47, 9010401757014106),
  (48, 67221595)], []⟩

theorem cornerMPZero_ok : (designPlate (-1) (1)).lowOk (0) 21785247000 ⟨242953760000, 17006763200, 253589504000, 0, 0, 75553657179, 0, 0, 0⟩ cornerMPZero 0 = true := by decide +kernel

def cornerMPLow : Cert := ⟨315, 281, 25, 2 ^ 256, 110393169607321533781905689181097114874397925666698348712921142578125000000000000000000, 0, [
  (0, 288878157640586302209670746293545626295578633655027623913687518427475050121928255945116064947050512154996767491201240239359660418777809940020275148492244444764790105117542984313441267109075108637626404878966096144724408354413896493647167358318697900041279835314513396962315143528890128775763347763231269807846501813496789578526634451514989043459960488311133014955473253),
  (1, 8609239984768220848133288213418293782936889936179745909979567480906100577206587449262360881379372751290470063311754606951602554889063775369665281831994683863256558525103791630611098528703716094830317027758264226370965335402286815657841341312732977819770873468266783905978977359163592591124416168388306795340539338137287516870992231588684653225179724424371608219),
  (2, 256575345539099599365391976041146927563455400949112949072705730226817744289039671579654656039036955519662213375543915295672479269805890604045125521137003767295369238832553098889772469499829252224773551528139914663318949907454043436874165387116462784064371490192585017201495074641526237274943600888760741469727514544002199043977353961382298360320330677305),
  (3, 7646541164490568618935107470784989820821744231853274973413518972091912797149178251897830949439803120887115276916611910427573555309689691448969006588362185131658387405977450133997263910218130903383951338199595825149311588275607370901854534394226951283052083412761720270930449797855436741078687235001629420797034385701281260477618453249847951282804),
  (4, 227884684934931058255884273969679767513923175092139094275688377440924990366155057261389745040069765423243311141983839930512301791360730517879797091766742712736028134059252170858861568782652642456289688170786087515888040292896626876962932460416507193908282228463571436054840804882081781085505208669588869353554082487535716790685882680252188),
  (5, 6791492847649188585754760324051373228845690938596102424730025023684111211133263075724335873383841808927685320938097862447494701683959021978657851694965112508558959155432411599110237585449533626038370713155791323889280007282025481430615903177702602759868916427744076949808005133371646518198071331383301040434931924944477217546431713),
  (6, 202402259339368003182255039335828221703937379675987435127471121721995168481956407182921274211315716568856218203220438452528940207122500375033591282657739135329579868105881545431045716394998451611715914623177168282559875843550278914886677028432241770252056621748259997208041657712797173416363585500664326378872692944043434713),
  (7, 6032057384829759692616910914654380729911845316767318103438452551730973922667416267926387677668688045147341327576127864213539153150887872335380233241293566872031699683142940994317715049639282682592664519223258512376884451314374923760184956512081503318072814064122312126900364657499395509740176449218463313675130288040),
  (8, 179769318843774786371496645052861593065018812321642580730868280803242338856775614641269424710555323027750528501841902516613663047558016982351160083679737122687208461824310092970866541052428547570724663291977575013870071846298598106114365150053326550967573967424281444903299726961010107066447648016674351776963),
  (9, 5357543195598566125973959119703221114427411923457461021270449369886715540644090726184192281983946504792641977343934172754741145789290723955514730114004010152555997419096252678291200237376019456405873790260944999647465572486124070983046494083426299868721316395332101195074677511220442780966429872035824),
  (10, 159667229521231833874403212061620387864929792984052330889426750984859988767041592591026194857655894356297601527305390068479302310987491998399394345852384570341354197841005542462643847818404913217256881131381918951563441797840874763726525411713240820507915339146345039176631424899102052752208652),
  (11, 4758454248941893395018673302579533692149215727569232311534894534372335386744986796162334864671418719787402953018434440305850697282089027122153251251534204885540539234515092887093129751073552308642605562836180454881496964900723363063854267566801572616303386314402619402824212092200495481),
  (12, 141812987594064873308499851899729183082259170042551526770902899078796932514963725212679094946783511301068135757049550038723359219608340127391679042964230585187824855058009743527863636051169423191613070322525483967259971497128705323572692501568588766686197573955855160653938754415),
  (13, 4226356375040557185068722125879799815483664573507056438226443863285179143193587764207972242818078655009273733951219883710415489772689910092162288533868884000980183617926862419982688719407698899414891871747798775235557093117075903119520258942225319046876249074546406224284),
  (14, 125955235214250003848121318369492563252747377066088362450327007178398263941028203142576204076211101636143354625458813272026271107607817878028159627555749628386271503537833290308985760973154722529625345629516223640264391243291064258395478392202218880013501759085622),
  (15, 3753758526273071880592546429702025500206543760580414925269240401530272961860779796255730778612555750623626107913863225506988626934469941915476379236871518806887310118159869032694031642283445414258928384773619229973283663384737949257108157823197415052959760),
  (16, 111870721765550133009354933022485031549814356322329903598692191443791082000725722444767796159434448307018031877500224592928532096298142318843090463407169262136231184058122509643369704451878268429077631415324410350738665907779977003493212879501085880),
  (17, 3334007315803687933134771686342259113738406294151431744824220253598121668349328308864035113816556967406714062952448765413241477262138791022927184282876488030339820168226961711475022144430605916589675990549116824582689515008134167504884418884),
  (18, 99362676999387350895059772841765589282155963424124046914659652095470902644471249519167133300738223143441661895870766641382951487503305752296975861292132434293283287523241666245475582858591953884545783557531217009121738665097830023255),
  (19, 2961193525633188591835967238882104819743236403517701369884152593381627708459389540369984659196712538328401494996211514252446539650150450478425348660388857527350190899854350668927629718125654579879086630111484826929650840498938),
  (20, 88364962518498329358115637092025806765199970260307824040922030849220845328417008823960106462020464956915058231554349465429131160017615088648258926094107643115124333445289631064281637731061351102156415227905867900054512),
  (21, 2630078062068529368924351324839914745287936360125029553062969985700950899204830832217952404409641688927654188675819256840773864909216716194391566787393783100435909808498054084372185921232718020687727414627906878),
  (22, 78381369108406674676522698249199795173165955706548523950038492544460839425504505227269704764464988429419089356185002195576576498394954095760931547494281014377393526408405642687622897780241996030680114637),
  (23, 2335978855322851109151504579737783751795922058243234077505715403493541818226728556647299543197675137253756111621527422493723559458086968430628036030430265871797203393076601726818946449378926543658),
  (24, 69615109377480110380807095148926218603789785710195886645704781929290685642473238174740766882359419624160268372020024297768096343771687387693157251431933628173240953435088531622425587492367),
  (25, 2074769470804908963327030710944623066334814395632851630651141587940952352782106353787030513943728627638795400872269417405794614976088158725346330825914982297267530686975105252466491),
  (26, 61834566587958138753473676135772078206502696829783249045981304560836510398027260108133985001944203121593296181904944936869081614013404644247381834681263480463333952785175109),
  (27, 1842750971364855231466638369838941300242581612499679373977008769031207256137370254881920276142656420821448058697442706231787530898780761250743949301125547500375293266),
  (28, 54918952487700736419042662086194509096619869007243087625432081680604457884594170986246901163446578938739230709420418071759216448877081396815357768237897658559),
  (29, 1636706571504748508192786118039226840946833070740271942411714035221383681236463999122761796675987183530173667857737272238012779537148095854323268728361),
  (30, 48779689139279770212287195001549060455909633315904766617109719243101059166022051543656748774598490670608488261694405574560118645374469824236478),
  (31, 1453725407153310873226307550788007276810979740540427913694907064276196441860351565958691339385587654854761174358345766960110357302267890),
  (32, 43356250462452375186305402663171691040397717018783945859599164726887468809216491425356853175416854850647582642936972020149316346),
  (33, 1291066413101223770334003233155384253037924908114217069371123617080310130146071661027685919544038082638050046853022624533),
  (34, 38366171206231886421064774994450927187682386516304118157206232505264820522772526747336845487757820720167216332584),
  (35, 1146746197998429880613059698625135946211788608165668582234663123212360271556380169298809846271215698726300),
  (36, 34176033963537551307111692488940407098124519311911078331381234264030952483292354780546967683247246),
  (37, 1018518018524293150456732947521506403742914197896240604286962238447988694995775601937243757),
  (38, 30356022452520823348058716330179890253600751090270536925541051164820100777150508790),
  (39, 904614832306016439011136814683367113189190486509370672636024546429327524401),
  (40, 26958835469495979968717476273801383321936339529128079601255527324276),
  (41, 803469668651494600979001752155863941715951862539948965046548),
  (42, 23950049082649098715476000265565198260566837578447127),
  (43, 714355772344427997420534064829899947440312471),
  (44, 21315222225111915792750882803302712007),
  (45, 633089158557316631789851336669),
  (46, 18771572389997157928150),
  (47, 563482277789250),
  (48, 16820873)], []⟩

theorem cornerMPLow_ok : (designPlate (-1) (1)).lowOk (25) 21785247000 ⟨242953760000, 17006763200, 253589504000, 0, 0, 75553657179, -544631175000, -272315587500, 272315587500⟩ cornerMPLow 0 = true := by decide +kernel

def cornerMMZero : Cert := ⟨317, 283, 26, 2 ^ 258, 531416518118951136902492141105744355294366470718383789062500000000000000000000000000000, 0, [
  (0, 162623942964916823754395016370730694062556792627971245138548891104544771154594787991691678545786121017648874249482537000308606570868480416651675873301606316429034082070558474129405398900410876643136515711285849137619178642516016523324730648994765990107579298260710308383623712681712903733670073954104891235966782730463483435848496100852422185428330508191077437906812312588543607742720),
  (1, 2423285588099313136255666857521693320014428982555437760629488395222198533335250437135870434622960276363888424058502233431974008341479941607858173228042773847627604093565836883762914853631351291450493528873427309388357439994718146301930505519350986217698483494742006747410036199338734763475831674922895045059964125115642370225145917039745854561091624074524951470970474230530291),
  (2, 36109769166995780710215372704292734265542462208203043947063213515612461169589317398307777027085549042333450559079107720497433499397403602775981735470479655129295584770801841664088611357552040302050196305312270688245886504027813993618252402650651835221554839358876044472618278573172943657138648692469636972331495330193661772521551191194568833985792718331463315690304882),
  (3, 538077491030034135434260557655881855868435832980320512459624015027470308089097103555798397591430692563481503965791240489737258287896751436517312979153961918416284651732716128680865815032401475670471247168047440602723569512023050775472943766424257215557224903766646857515456885533653161845898371657004483399061414693891509176741533596934371283960701876548654778),
  (4, 8017979428619655004654236997006563184685048952405460364514947161487792552937621719327767147337587191844191858187467640971305233611692602180713288885671555464707001987035336525121940085641176711174758795321072292674973493487453840833215027733981806788326282451826354616021411102930989251002614395600139988637331525880495669635052207282229585519352751792),
  (5, 119477203914816007087442830160357999573425187951407736011072205923401565796697229318027066451822197777467416806137445823063164033831448025900833520768348321047962057430982853805863226221221311450594516843368368798139289715405425957647914203367044794517504319084078785853736291381954318410038349273146682672226537278664542258863428687923919910055),
  (6, 1780349074524879561177534314399331801733749925366159320042694045426009247107260240458675145945875395285484608690886658529815395966412357898074078100637199037609224678619563282821004906070399376457604291399083683175677592876755485508168701017721759870440397134819826394177172091154347703221933855929241097802498635768733999980283052911214),
  (7, 26529268540812724250220273649682578470315783103796233535447926340833000375984026742877543720307673041962738696693158732255415576404189716399163583677701804226893642870764568449692539144306246503991482616126769642377127842926811710975777370490992102766495522991808651424654664675346290787528441976701053279193359458076259039705146),
  (8, 395316906881522003564540649200716293905910597798172139159558979098125785576906265472817512777206237896639904084314694654584649202143461721710207603939366507053931562570242933017788745311500398768448453447688903408874742375722231114731247817005876385783906006448776045538962232449149030498649678103575723916521530431778259),
  (9, 5890680952094823175140330928574745266227582064243735956543074407722632945061610435573425025797175596505098769118470619404095176000825303286575232852696940863039402617860091385930250092598384107876404507614906823936609280203780445246150052290827720758924067268565399480173093437161538144148476890889312558758365868),
  (10, 87777986408692943679397269019108195099645585779007314988122460696425189215383374044830288711001309797841817020002808588818960006693443396039347150288517181531100670235788613676896704650304565615846202151971160616205277026932085672026032087884423818538967531746377194438642294928272286431475812264914677267),
  (11, 1307993924747302289000112846778455303604090001866330429734629360306668974927057255910565038158761500004802648768336636939547437778809796741586557302038534283150426550429477457653612947989847435065444200250184494515084978554686933213132232262425012539018823370607850863251139622312514648605457938431),
  (12, 19490628313232992425562632780946125143827348975335514988521103822160273820689859650338453044437106543424146609070095138249122683267855720331964357455828721857349363026058752997696067211785184511765905128029107408728766649268145345785699034642900892505457931276139716159192781697559263731354),
  (13, 290432994264855868005195748522074895260145499934785291381524249040602310378785617361038672015930152749622456539402592040483198933151556441416112117398714109768304598514098984533011842744172200051373943848607562362086356982916787576806679771187174400159514866057572839079068073815500),
  (14, 4327788863552449166852172442109508750408425439010004691434180219828101196136506137269500117445014262806291842751641220544597015108609800237585726155909669882778764293167665871107617471760493374978971869514260419618239241027397480287415548053117141773604792868608837214337484),
  (15, 64489079468733804924073404701195787729036147742178793985949606649847515921755608324519476456267538141831129135408373013783448613345741914247966616995900579290941939136198002504120295488828621377904950006761277100342954299626783279209079814823061338716757300541314608),
  (16, 960962168406453802050253818947014037803754835213285448480365585916995882777166320828530848130568773112064956913807969821066168882452962107513388384505109324732890180414974059462089997926315409029963370952076961822822599761442077384778302776318355605536304557),
  (17, 14319452172613945633921829167670653618443963979491639077518371458973048579095829879170063543084993902530227397493024219044927380988847137016094945289549408298280927127360351133567358645532167026244334825823637133345066068875221877722919164080472903394),
  (18, 213376465031712437201194708087565565125284016132660374630251918591061506524514821455362809707733939614278952473222247124217845155513047408705214932403876179550702652911760752478026328611643190034670942142376631416602972559788129533535782933501),
  (19, 3179557100430245500847302899444089826320470705643933057602925939145641790201120783840950686396611027766128772043844826173943433625373213503143332496388370669722472080500190631132326707545865214614803351250637958401855189391629779076034),
  (20, 47398006711753279488894743102407874063154297890558134805396879974274594253258562421265521492280092144451653105069371214521203709461003083964115128781323861301691487108385681557252498624109481572031278432344033991621546372040080),
  (21, 706003500197326334098292502037725745153276527298322370211500798661485857168434773705108996055042374818029469128017530571665073800096982525604248899262985114182529676046019823950021561747343771792459346787034597746440158),
  (22, 10520271959861015291486568779315438049335427989040648493342071841492058651161625160359049528167899085301362517479745520504484758638971224065990805805367511399447573284278507007715627822432069562286402832929210254),
  (23, 156764268277004589013555180718234748383394300774345524509878296889754131154581892062742254695640583596852112309593530071841960196294333282850382755005882513650552746445300324158810347645249163499627026268),
  (24, 2335969631031223967873382281038682883730445813750408955065582986999126030365873418158360075905186127504391291860475515450670470802976075013155930534456979070874581478847755969507426794059359256732),
  (25, 34808660015929102418920133725385112818039146270609035418426555574192069433085373430595396837976363560833353654458723981886025271387921035004627259613083913032930396159838264721761714342252),
  (26, 518689453839199281020762528857366931707250271299616030132984791207659683472461307630166615437189693713719065531875053306400779496451729058228262667350007654180689244734870551489210),
  (27, 7729075161206711545895971787830694492269311417633533926795836296442106069139179733425007730901961703470901921141893141977064383389541348425072347242184055579950887263716397),
  (28, 115174436212893018148640137210853491237724888395683121254525099628674721165754430082400091040487282344644876440304387653510915392589320944944616451022188729508791282),
  (29, 1716177140632948021495562190754509629597309434802459838860764453962733385441045417564829003871228336321282245579137257202538195307832188819125557326007642082),
  (30, 25573428525497319184743081716621578832397469908401936418552084795009913164998435209194276784374444228121084544484721461016230279855865356502451802149),
  (31, 381074166882772744711647371154924287904237171906280932662905985465098883307222057158294460852475065006003389922272330729295590069772090689420),
  (32, 5687473994562489433666609389651685063533774028408422468791322250782800336312578231470254193438423007258277502939191277523520488420792),
  (33, 84605534782749422071762461142936804456155800190892938972893655952060164228403748421376515140537424405075037903463709206005737),
  (34, 1258422446742368819366810696823806069710044670418025474293536807361480905699790692569292623283486869572098919158103725),
  (35, 18788340942158762767191112792427963527895736464122396074187177079102571284434663768367683514637322107077286628),
  (36, 279968096944075268018113267308890276072855837108528555545039950177360476361332148948731396426495169911),
  (37, 4171849741698432982237834741307650149954197363682516746894377162389496539261066110697196223417),
  (38, 62165405477560057971445243676120790093454679305590938730440572466345259530914197948818),
  (39, 926336727702022462657768185080897660455922474050386827147113917641422411037631),
  (40, 13803492899269200305011394397629762596725262314832014249976033188096788),
  (41, 205688072730141882673075711691823044370491241139650557189892465),
  (42, 3065229443514466331606553494397432264076036584756301249),
  (43, 45693759362460173815768321872370556486629891361),
  (44, 681133239639549049346500071382215161660),
  (45, 10137080097280675363364947598370),
  (46, 150601540224459684838775),
  (47, 2252579048340945),
  (48, 33595421)], []⟩

theorem cornerMMZero_ok : (designPlate (-1) (-1)).lowOk (0) 87140988000 ⟨584838959579, 455003133221, 627381935579, 0, 0, 1850118950400, 0, 0, 0⟩ cornerMMZero 0 = true := by decide +kernel

def cornerMMLow : Cert := ⟨317, 282, 26, 2 ^ 256, 346354343637659179583322243615382564335828012862716246414184570312500000000000000000000, 0, [
  (0, 162623942964916823754395016370730694062556792627971245138548891104544771154692748223064058809061297148922524141253268779230330879791078526784415853213117075168314246754181368272990098563067212003050657067488400916323959505006969962428852135752915002001658897813755643185907905164531306870018055452022447928717259231934747423348110017926482523721531320770321347463048531509728980453134),
  (1, 2423285588099313136255666857521693320014428982555437760629488395222198533337293523492583649319237503431218761118877361854257977597756324036395896953053599408794448809178301502198019690144208597419028704586561242285749731232079147263672455822009787378098774030280867067528908833720446537277580836825682863720677240123187925887298014315302195901643574149386842439736403026247978),
  (2, 36109769166995780710215372704292734265542462208203043947063213515612461169633210293456797485903285324105649074549102726473561503145556119506482666860268996520346996409756328946424353153351442927521269968315325604572106600083297313888924490666361460257475107827610406785114904905858867974273635952993527938540953689231811199912482267343082110539864590152190235327923929),
  (3, 538077491030034135434260557655881855868435832980320512459624015027496971268191633433745485427780080477795821410064036015883404839433374020597168661616793390033816261709531768544626082153975939521353761960911306438045399869425733683448715520668040031930620041691937379784567147294584603154083524399084144968850101413259779251602385307411849210170064103508113869),
  (4, 8017979428619655004654236997006563184685048952405460364514962091308853951761099900420739865710727891897447259494758119598123740065801211335575711996943738922401284762323784242496257108479958178643149236048073389767425169424588774311972463937512843897165192262155027917487752853493921209269940643903298336301474996273059382593572583656145159087386984135),
  (5, 119477203914816007087442830160357999573425187951407736011072205342617493653369005648964663280145352366234430481833920692616459164993553986084471618452919849902563421869237059521373123983657820603257059727725929957597585647863791864797670378866717185543372967336587441585982246872153193355346626896906848107087495539664001650655205543349050479502),
  (6, 1780349074524879561177534314399331801733749925366159320042772352436538983809221047198906864613234225214325724342348793156490259954846403197141676357648129499169879749272816508107486464254857115210871074421641169815924328655564325212600288835952822522240165478394369230625726531049576434735100791801965863414136175443181532244928329828779),
  (7, 26529268540812724250220273649682578470315783103796233535447985025892355238533755834444969783224274397880527059255972577862838294726784253831554202679304000206530362381134372938438675705877650995045562717595122967881257318406550737467715630052773231552263864999310848999860469750500700404607982007904382392202062609462517082127382),
  (8, 395316906881522003564540649200716293905910597798172139159558982941975633398294661384541800463388115088062548601699226510410855009878409551249296445026181045571160441765810530504692427933924800293468287743966289797528941365444490706781594584343826378216101766327912649799969818365175447146956982449478977305290845680046308),
  (9, 5890680952094823175140330928574745266227582064243735956543068765858960019478304602277919472240742474319686475943506263954472288156022483701721058442492382409928559268857678298214324354080875732409558390138602459988876877602674239460697161269582825954112878891732323400710429546298516640323380994093722610723334560),
  (10, 87777986408692943679397269019108195099645585779007314988122451307876460268373959099319315397034202010796501296728379488642319168113481971979593154331205366682681537538112876290908078086063262102225658161553020696882091847448950723924751953252647794927350571908623847941509868163644467651368259572652111255),
  (11, 1307993924747302289000112846778455303604090001866330429734639560325709599141198939597839687547554413281721971791624687146154447583544915406754523613171131674270511438174968954666381511020872590478811084792049272792613187087242299315650580388704668152934089152452363609505524268935657547365849502772),
  (12, 19490628313232992425562632780946125143827348975335514988521114340348049327923808680814424948379787896650787911929130106782523152886849117019728584337797391015772430894722575230642328954814541233674835012756383985578535867792657301244624622971388789815216140230602281775048023318009012042828),
  (13, 290432994264855868005195748522074895260145499934785291381552832297881020212223872030129514278934191897860376202459225765620594059478235921308724439404403449845505787791330381398731561177048277275718821781836390282483239294686119592261771006678978831441430365908181998539153587996834),
  (14, 4327788863552449166862396530808404333293855283283541115689711772295005642542111117134419501569193355123513020315429889736076521489398301986387435545498536042262750575818512458785536675764510844804186600314401103109352968891268297189477922122175326717422727083299838389757854),
  (15, 64489079468733804924312386326139879783751584549269492937290759956366454770078962821399034815911922136992265907491660959219780148753709169248234915880167726296111261474406546355116675618218717114598241334648854132114382704797033944512113092085607533315603692153219319),
  (16, 960962168406453802056644728645686725121831296598365687902033780086128146326594172972121535930151150564657483985111915128812792227800958790380580655651263858163643756736583015363370116943505697322240812894684730367684201329073545327584078350159670775568206259),
  (17, 14319452172618810356195627172121051509454006944428441321997760095858283931457988384279528989116212486902660537151832043875049564785851255297654455792009832878654676685210743567781695176767869705743088211452462582970998405373539462263887427117969134151),
  (18, 213379600074962841540683981316464071488232715674324163988627118356974583117454830187750163947167981608320722512961344354503991737772501752899034683990187375672242482935725376134073677536123901371357084609194111020991204084458174256224557533178),
  (19, 3179556247625255956390552736725548557571423051919654732099222207812214734031498608107883185216277501397675790337546134175691397930117658578673270257073902456882455703820498000228148564496984364872207594283623030460343281242773759195007),
  (20, 47416344446392110369213468996733533932105822382464413938531321519201010516246831087174598574653561651539173162404024024955802163537285932944157234765002171878896065653977285585449171232252344223956996802662118951763308312134305),
  (21, 706002742737691297197156510682845012359214732908767683426366092358156746913195814832594794365575335298797376477327471777288730206121379215168430740429915591166113061379753249559042324567685455799510121630051473550186392),
  (22, 10520261613415655552984501411747759786447127138462878908118211132387902386293395275891605904719503543872474565999793767005566919442131466435030289789562844126969174542063730144666223462745392442276998074557617048),
  (23, 156764286964651572281855858313768944864173949236255997750164336531550151821279428057353300551982166609325260509293325155726834074708624454876997010011744000210289431307221057241174269345201342538815703895),
  (24, 2335900013712640290664364794520495376577478832096497692290561376165995752440208658114684172566266179277719191282479210793602020057591900802575988115444789354616575622509542556614737873982614004259),
  (25, 34808753380056438545850585389062940610725862361716394719292798958516905177391885802450378724054384569164891511885924303393394053849735251014686505468378581708874968375705262475130155108788),
  (26, 518707045214025016915100624220442992137388048818120620813558804698864945753552587557245809895274475117646921613337160681224485797030565005526883957694150267780614939904732538787788),
  (27, 7729079537747002907363424390147536193799419584269285072054997700305118862322830428144944629082497790285749224126315768240748388394324967407289208026358492713768955094077369),
  (28, 115178084852783705173495985557021006262640540574583559261074282897426811073464508749865594555514937847414580431895460614054143153292611774132239237427264611744174529),
  (29, 1716185375254068862227874638789944464842999870705181932407686799726137475528870381656942878797464993254834262035625917556825932596843771618868184275819938237),
  (30, 25574503913000767689085830805280031953893757156515820579624450534715874346981105104002351821085974527358525055056023769428927818325415049731697342995),
  (31, 381070850692211578489570728031031484854377028623996633471486755222689919428386043959252650626445351160417532880248575714052180369972591755857),
  (32, 5695944649375668841514486831747344966064468377826084193144102640981227984222034752974548467303023792787881430514988132097372587454402),
  (33, 84597250902557388015750555302824983894332975273118335989422285148011454992469714739645466307374977877662501318341388730147625),
  (34, 1256094345872907280790367147517350910433192450744112226504715334217253672584555202898396917208924712077197049050929615),
  (35, 18788292227715885274183187087481810764549688202287100789459938324997588513681119642887947390787879398874305537),
  (36, 279970132806813868864391251524726408760305687822802609739991951998224804986883289478540086282622059512),
  (37, 4171849244378959352185505430528471274406226907552130408357782581372294227635184461166753579868),
  (38, 62167591632188515164464082123910732988998035347116782467706269968231483780870257020768),
  (39, 926331786050905088331376181796303530959092976943819904306095422072920717198488),
  (40, 13803078643496202003518620158943873911452783857906596861055126347151070),
  (41, 205687870440785203342994535595205642556166366616030691830433792),
  (42, 3065510143172314606962443583059300458237490646388922056),
  (43, 45714678559955028254145194056783795209282843057),
  (44, 681678755326142914534416703942718889067),
  (45, 10133208209376800058879878053038),
  (46, 150132652453660872414581),
  (47, 2252875266961766),
  (48, 33669019)], []⟩

theorem cornerMMLow_ok : (designPlate (-1) (-1)).lowOk (25) 87140988000 ⟨584838959579, 455003133221, 627381935579, 0, 0, 1850118950400, -2178524700000, -1089262350000, 1089262350000⟩ cornerMMLow 0 = true := by decide +kernel

end Composipy
