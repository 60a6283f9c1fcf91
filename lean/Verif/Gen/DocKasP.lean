import Verif.Lemmas.DocPlates

/-!
Generated by tools/gen_cert.py; the certificates are checked here.
-/

set_option maxRecDepth 100000

namespace Composipy

def kasPZero : Cert := ⟨339, 306, 24, 2 ^ 282, 4372177712994377944915573869070172611545860725097986634514978431945800000000000000000000000000, 0, [
  (0, 513150706371282439250715261622761450085128096214082311090763181386205657233389022534356403985322504234120520810659647201536669672335233015216393955531480613167838218168993381302149366752210127971220397372797350200006983930618025024743024492525808640045610417804969199112259707506951990896120368117393083534364348917587876689861851016251848664752056272001),
  (1, 30586165569501068547410682536528196935959344876651901667759608112943509652220548542401576314705225790001874133770283916488425865038962485420629890043821842558000356302775638006624892263144498581712210162901656129922355001059418303353498707133057347588167417388568061349583916199346375962339551297389412507320968256504675224099345871020196727084540),
  (2, 1823077533811394485676925333531391438004931502142661909327483660754174569381508144362004942279836519204287658373061798999465257315073273425747253355897332337644391716262595655017626514378296013418071629533819511627500197909662874004321839428212698044149530478882768370359673573789926096164725975894313936441541962530417018313815961112958621),
  (3, 108663888800823359827812035890304531932171076663891190846412400052200232111375500227245365517696443237494737334480719510608620865970971695615394554966482819271925242096577719072726930343795510757328138816569639826037459724758599398709347095567096888551780931106320102615167396207481566184651336168105976934696820351956807036849431735),
  (4, 6476872491885623921621563189643891568909351626866530826473975184691031247516361535118746611294280115909829879272303695582347776361469534483577627522187198791786627874224928063116213955236588657375485041357448048992946001895038235369868478450872253605473501286001156091229077209156861174091597487901902075055379817681533820859),
  (5, 386051684134341712094638537743323538834413983039053131727813256686234571257232535687310714225695909651158605348908422641200682193013240430067880162205086865340327906127380099219739095546890782572084821468140148397932608787500169274997842631039353634649094224637343958072458907884158101153940762188250366927335475979323),
  (6, 23010473497768742566981228455503197838927148761692829889251483688010693631869338578020950853358257707758292909572831461470880746315950469751841099747742118338305067740946147295331113080899563816427588220383323474536219356829009338289093509456584999836174902418492682545334035763922131478483271412226710945588731),
  (7, 1371531098948046122013403681248617043431231305700113167230818262772027171035770820110163638207694297687715962187560336217379014473130263463531179667095226226941100013022283304317913419698177392036851901020530151529849376735665868020919092164116936861625573311321144717698979883793584100559863524704102316),
  (8, 81749623951199419618451814725912633146717030149705002739116622110725204082318751323105099269131187495188430613260852378967873579983941659043466089087465181874370664900964201502968521152443844967412941175093895242910562818124195672332884248744480963893113256549542973959578943743988980651663232765),
  (9, 4872657296133006788399923725480594226522268661839068099300827854518315671785227320043093349128101514922814539151300074823776781440691469449810265326768955885541823512904822684868121084347076905888185442095354464527640748154021103784421007569521602282895545848672931741950817840168599104229),
  (10, 290433007248223232531543000071084155233041564335767513467541907428156801654352588919988138008176735555801692167035616799172900281618428425372424850220027421780787305248730266221618150205222273942321987727081135839788631301343110406136528773553059409757000050801342315460495976845946),
  (11, 17311156228078796418401181702082404806199167033181638330972645588613327851829635664267723392250084975632685071282884572329169055966784752995117809803841751477845085423698337238267453934795730696938262054241980212020336065984724049589166854220726175612517409462810154890326722),
  (12, 1031825317625927711629937988643789577853630008291103740318514695957713062841187564259185215492880482012915990248073239815129096983442918119596322510764520062725806291329841969149357424476992476022134059957939982745661951504143688793006751551790698245829171622628542140),
  (13, 61501581527348024346228718080746506324626803892320617807107649119996655484124577954423116745610027425237885684755792876706451925909894276253668894579571359305473705480293063180682404207722613172264916700054808116610491762265036687814049672805753483141126674198),
  (14, 3665779920062304994239134674116760869302589698242385221549114315723251140922870887615123891757156408907572537240986387131764346354785341334517049070694233344823792173794614628825923526633650867224730011372008115924371184676723643712942436312354241597573),
  (15, 218497509960073530330606381542489580470563749103281046354004080382202509869631788972336090919470251053917047278306116490245915208200488337907466643947165911195058923791026834765944079013177430094300947062398165904811810360407976554902388054368180),
  (16, 13023466465477557798064135404973822403634269670307571080128734467087203057447203208165872809887661933615588253084797521087158173677499298950029301385482121962340697494590246474385721573178671040447612181358519362432119249035143639489748520),
  (17, 776259092419001924876221381053098371572975402463150745449285636857768309225878437870550225435655793162080062017379897404079930343385378680621672246681856857932909868697207319424477963000849691313371047531809755190495984487397529597),
  (18, 46268647457301731635626519566144219576449466447941039372497851967999826638918268942468250887364680851087654989874112747860124671765681528637728548072007629576998310880876800604487702363978534866243476677130591876932604103579),
  (19, 2757826296162065528778547502448986047749064249209894767427708272780127907525750394343769270214594059545795547292242339035984461188397187057868958572107298087059374950610975399624469217337556096171168231883024923663168),
  (20, 164608759606491552994843294241519420320257987448388992506748893378020243726269618989479000181742354323866338327602207842021816670919871524616036308485875099998617342177648221945944090728129480112727184629821412),
  (21, 9797754357477193823934626883867312944778477355564582136091279741350148198990057271582935398516603222414471145903775896340666190324595257005111075388562601722953831720885842157093187696704043048272628803),
  (22, 583990832665886846133314273967615729125790043405497180651564254581457516295086932998470213096444022236828190712126776068071486756627803649871960909360018859318205225695649412670277840116366447055),
  (23, 34808661571975544279694337004353649615922125748773283048486852246399628881099973281130983715495143115668682929660046046464659311114623744878445013044281287737093186974030980178529244106640),
  (24, 2074740100316798526747299806511853515810813793249746111261146838249021188176856005203789570555492519393463577254579246568298234617789768708800464193742553123618297556242564672415951),
  (25, 123665208110532509087373596764912623148320344683407404887987380684168600044702095659988536097190450503560068612643197782260616000857291032199745505774442190490245239715084281),
  (26, 7373530350677668014628254147728760218922831420745590421439668744135886381053644170041316491935722893712844956293523637330418882404602333868261476481960179622490576678),
  (27, 439347076433428213507686564637730616055492949222636626572916840255551424129843288241114511574162251386221389622835180748026246777436834742563097201603778849646),
  (28, 26187129545804148065429151306006325523994175660341683200213347220337611516016757220263122489706155948046902092623795671758289390446178780658724209597966),
  (29, 1560874368194955428622592108494369344981912936986767054214553303546031947804666700610515652277686616339820813583334389196980028397337889343796248),
  (30, 93037857657902111601525224805903789042307778379215604699284604204533093499667803050512215503035853831999740330572952432385533804477269946),
  (31, 5545339720480468924332838594462294841318326663556581899685559694172352451732869640802882142885596881656299407877005914938020152580),
  (32, 331893007796790257398997080939406547522301830618848847190340920907968301202706676092799750176520338737858703041466862811682),
  (33, 19701004264648112265630525035438617254923865005802789714189779809969193429456524733200240940749597954879762083198763),
  (34, 1166873624479577067942624547406718963564648810401320684448497389589732759302617419904088499668124016654245970),
  (35, 69991668585910457783676025415470856394481025061110933659538068152948809505749647629833834966935883809),
  (36, 4171801190515506315632662531886198194065155325543906364201086584123307395226461111277568728975),
  (37, 248661633033553969396376885724130540764536941560139697041820272811144076023640447308554),
  (38, 14826589903558765546337165029032063602929617286558705111610991640096599785513852),
  (39, 883423584991904170547950087029535281984398065742062366844225178564670337),
  (40, 52615887642298877977462796552208616757838166226152001808090874161),
  (41, 3138551054775061228101306078539602930302030110868121906404),
  (42, 187070392080553285151918173712404385981079619959629),
  (43, 11150419788671466606888240657309414013738202),
  (44, 665894285384609502513228636913673415),
  (45, 39614083587629993433025885892),
  (46, 2338797958749497678199),
  (47, 140737496806233),
  (48, 8423892)], [
  ]⟩

theorem kasPZero_ok : kasPPlate.lowOk 0 417406097412109375 ⟨10933812673538433714, 6219777857550599286, 8527574807797983714, 1804678399305337500, 1804678399305337500, 25817668806935760408, 0, 0, 0⟩ kasPZero 0 = true := by decide +kernel

def kasPLow1 : Cert := ⟨344, 308, 23, 2 ^ 286, 34608375027067703558134557188889043756323423295130995194826041114898700000000000000000000000000, 0, [
  (0, 911538821237648120123406569755945874105435707970357877210653055550815794059522562947073995285150318567323120751957596193615177663891397730511142344038799667195078631363335931077578964718451956715463049205851338057038533611974278384291513411609785467175957147575580878723131126780442204463795782637229098324435685362074099717970432073176516),
  (1, 108663895277696623816896268100255235922984565254492506648379928535320257430061535338560928280280033202847908845746965907583550268353185625272775114307863928562976640702232746567398253809061500063827341629904277231425012575606981664037826145728724538459263085815152808592096652417018403475995916369760778003371312035407143558159811254),
  (2, 12953745755874708153831513893634705057499952942668498354957095210005202656630525758071603672034961091346638724324966196502158860728485375802922964255396691854021952536884359549159694920578196737711539283352124449199471709748973862184713646580811162446171821319591691007421322605523070244270089347333448167745145826197215094214),
  (3, 1544206828579271811703623997406328327357763402780115408296244856113508388508297365010235193783710468955076399703141911521455946977172924763568039465650736478324914497342385844568512500374368043917913034447006312041563116002035172915611578182056603702076331386518623827160036096081244347564037842945548045310044440577234),
  (4, 184083798954400040114357947994032898826332497928156309192273385399712350779121310321026089759457791989578662909446791170099703646908708202530273644397257229710657877894459440838797411511226891751260508346050629323014716088255188148514953270605324298922847574293985725075376497943476644023902494915576657561541472),
  (5, 21944498891162877096457236766103851655284464112300432365946152792645773679935592695150607925740862596381489190000116463372329559417176935662125694592040912890014283178811016366950052112116859020726120871632556204777233826855158485503494471253213474754097445503028174676876623551289510360957159262854734093),
  (6, 2615988122363433491761355014574986893568571104085498099389634609642588167232913087803656075911151107484673752803114806598936507820033235203062384812947057078273129484611168679373898076573743512274088892095166772130963471682447001207669159288937994770017248050287203720931718400916547385648449649236),
  (7, 311850085540227114172143341848252641388007534037291639399078624676019221787380707165477181698938137748065276854501238353905737124563308868825545009087307644018852121042096664390621222160598336881052632268303743626737644152308766815258305625716870520238377421381893531594920109177244151937167),
  (8, 37175427143600835105436246615439968274594251398717360488563070563156490072121250784565015246606225771504903236081632872252964984422994931653971115064555518025096886488540714966139683505118531286356632338739101740686490315612132272463328734114968893484402729778139170983555757272853118),
  (9, 4431656258535484684161692454271312746357232498969717104240621950648591114284943200168932310282828104746982749922460981733085727666634658413810438791144788345458052633523099519480238013038341581320336693059607803850286765524905608751798137627517431908386832985813020904405461897),
  (10, 528294594113288484115802342208780377669004499789442668523919062726814247572286360298993348314263009075525334421715618792555837371353595796028609745352195373441596240468240557728622173958287689140615473193153798803472671661320593624465398758273759992430427600964495015884),
  (11, 62977623237763462557292263771150157173753321145706499483544960656447712824592730085178257125169776743170711705139387443903071078913938298110792511509146311715706018246201226248331448448129267857368468529594351584748527929659944616727572462398528700125148426832824),
  (12, 7507517723770554370557339640992898604125180381024658180559121000271803149280182955579075817739301025667473508869210240038044272027212543147732949528997573199005089465238431982274828590912013363059696745037875600261785132766081436348358228427495342963609945),
  (13, 894965854140586181945483641742813420787475154522021489183038755521437876795185925967662148674580749298264131309803420586847643784329996202003987135362889320550565637730572744004489504235658871668504680083095484580382695626609509018100284915398053188),
  (14, 106688243644307396643815518024428846903066450803077571030555027969851606867034449932385585102320974704473457132086646087084548669498070055631718358338761308154223448371649163829448671157678430786131938318416660661985790873431161967622165874271),
  (15, 12718229728258537846066413580269713640057029660130354919874358449567680094816133184960236121948114837403318040145141423312859912202311999236207760278563558905565730873847731590417746706031857323846585827918501810144750763393916493726855),
  (16, 1516131130249325977643207522300195525362702893661221011335575506677041495892722010121325662634068900726825606577621150732826853332178718721640698162611368934544965284290767885280268656484457478267309254305656453891585140211389656),
  (17, 180736914905362198191435153370291707180963969921073790989722171251272408725027088420104597472114119747172964042152929556748659749616097833253802330883922618612481180606551730505960244979826115358894060243668577168625295572),
  (18, 21547245203260873397431599795975747058714931887972664055795834759840711251506668305929447565385598725073541510255391342202478826252011785156824220388463634460614556297853611891097633713388149995008190490380524049562),
  (19, 2568426039943685546298876826283425260803977917807011070659501959688526248897765302077997392788690934312380837681704209604498186830166368829834366439839043066890255042973301738352063434798560779095393047884393),
  (20, 306765476798516832986068634813549541878808439387275149967748403427664149926962370660408900401432611724063322095324030478403541227375341652996243912737525004075937597709582630021847462516564453348261019),
  (21, 36499807761385252332690548476842958542853946044763631241028530487892982004420860771848075959058511362636341191741414689611280741696791692880657285313800008591481039704175842053282149728745912189),
  (22, 4351150385469614035106269996726278388882085700143026403020170196688620782337342334360869207755145478183965370740246377445432167059951609906660800033381107934087146530945708477538924191729),
  (23, 518689507941596721975833985925796828535696613573512964641215446827858350691618798966896761915422886629297931763498526244319991733924781919918044931712720870986849971058539439128914),
  (24, 61834597914794838559773605583615168523113983799774229295479694329400499977961797939938344194063496444057779712174969960931389175416613840648177880415400602353484745316407698),
  (25, 7371021240185369870153642073627733466320357728352711004457449141111217432727650557374396265774031170770710374749374460350363905362755310858700223223696255803875015974),
  (26, 879167877959754988563246300142685339181632608096306430782320572161059453855796188087825475806139001910334969699037627381438719743451141320099178830257000135387),
  (27, 104748511938159846911600679620165859139739993115182252868679647216057381783070884004908246255271003313923481299859576591657640337226002736790532444488746),
  (28, 12484241843540967604607224339987198957810066692159520415567494600312592475169978486095419168447020799367084633051281241337145149700915038960526693),
  (29, 1488801894497324880439749438059966496553080453268414740355655702945633123797972376673759357139838770849118996479035738887435414331313618184),
  (30, 177489719937804058765071180794705878457994404387994914544780037367264384689604376300069667517055590666418141505965048503559019297091),
  (31, 21153793539980269366272697155255620918851151655277378535099864062029259406521712751846719675274251583270339672258455596582094),
  (32, 2535846106049577526812484084411016852614672149313024228254946665480039394464438972650509238484798829130254356450478397),
  (33, 300613486103558163175199067934614883225823528571054973586901833768831879209571662511346434537192124625679627080),
  (34, 35526244746351633258267159088008925320636673830239840096627331708621410812780484647537427303559656961291),
  (35, 4271975599635740088941580448372608150937746679553118143592054668574443556875376351174553676769865),
  (36, 509259419041566026134166248019548578351038509516251121742043316012607298865393256597509117),
  (37, 60708410124347211218532789704529552260060047180141065788831366604518607374392710088),
  (38, 7241656491651808329101657103315079286283331977078477769775631408633651240097),
  (39, 862718396040574289101422440035563091458745999246198597196466454867972),
  (40, 102737385402896900279906456663660517015586423085815743723391721),
  (41, 12259965788552970317529149756155525680147136081886750309),
  (42, 1461472890548767065124099868737203555838670546573),
  (43, 174226088089309013409697218040806842715607),
  (44, 20822530270432404125013280400006232),
  (45, 2475880368404101509509384825),
  (46, 291213131295546732234),
  (47, 35184376326870),
  (48, 4217899)], [
  ]⟩

theorem kasPLow1_ok : kasPPlate.lowOk (4517 / 20) 3339248779296875000 ⟨87470501388307469712, 49758222860404794288, 68220598462383869712, 14437427194442700000, 14437427194442700000, 206541350455486083264, -754169336804199218750, -377084668402099609375, 0⟩ kasPLow1 0 = true := by decide +kernel

def kasPVec1 : List ℕ := [
  17455526504779488581453044230897557869619580210793931524282341205329620383904735878730972055492557140737652519858345850211157954378847806542738155703429926180018850617898655476104527421757874133739718726833310930279678064800422445055715760501141519250236881799668867586255013253332981334674330907960939568947700718570181711063715235363115657234522995674289979952854841835667098613318809891519595004789896266894673587231503728573164874613227227328419742880294365001490993388244886776762923314842033720988001881449785152126136336766868619239749195649227343327392523617429157828835844819091379506016178544127813691784560640]

theorem kasPHigh1_ok : kasPPlate.highOk (4519 / 20) 3339248779296875000 ⟨87470501388307469712, 49758222860404794288, 68220598462383869712, 14437427194442700000, 14437427194442700000, 206541350455486083264, -754503261682128906250, -377251630841064453125, 0⟩ 392 42 0 kasPVec1 = true := by
  decide +kernel

theorem kasP_brackets : kasPPlate.Brackets 0 [((4517 / 20), (4519 / 20))] :=
  .cons (IntPlate.low kasPLow1_ok) (IntPlate.high kasPHigh1_ok rfl) (.nil _ _)

end Composipy
