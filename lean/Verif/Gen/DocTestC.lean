import Verif.Lemmas.DocPlates

/-!
Generated by tools/gen_cert.py; the certificates are checked here.
-/

set_option maxRecDepth 100000

namespace Composipy

def testCZero : Cert := ⟨322, 285, 26, 2 ^ 260, 3983292365940454344142329368701171875000000000000000000000000000000000000000000000000000, 0, [
  (0, 238209313307129287259650435599576796706576084504027461376561271634915136613210874104119387578553968104284779849592627048714983890902185725692849008103212566897955823265459829190480904002010391234866499079685051108146223164622924777081911689641054852137584714562123399849318971896755918667806586048193611946540143844809975508782387438104096562392573932521168338437532945908990156685161676662272424012920135355642288002826238317617002482470857941003507064173521848276762461784151927572321362903553996434123418825990084852821030050527251418745885227779313091427911317268482760199476129865583199399140589637537352492227300626378269152008761418293273038324355120024714108799049377767496451401430989909715582451821508345243867234185772118702153686170979897109649567097113281730109683803776),
  (1, 3549595375465293038780248695605647514858485527396611293801088208480404862958354862095704489626794578198861775541195676456615088744494106258345380546200462682514724482081231909848465085059559214634694145317152904095444428393586349145798559332505685867929230847390344736714943824660121182617643267634415804543199298453479640316700748176933773791679351516383414543234302787616702268796588132713324189378621210987005949062499974930539764202696948364429281118117888251821305984358537607243524505468034760189469354522466392357170703971635336369942595428131052694461819420708469139015243188055531151618519679010098677405967657192669594110933840071805040585192158807418008248088074979273304472744350952949426456838685572071690367518097400127964125377651898503023228877807683802929355),
  (2, 52893092862744525652829538220251314563430630078861285653726580865389181121563238830800421381395974430424895518141920513758288156159134302412649699243910054601948328049201248732931391672187435845057579060154451490870780175828730302241423120088960019766229850759958397399111745128931420782471347862994906373965729749999637012432526769890394416327466838305941440809284192139159176778742494176526728114167171880409210161305963619508441749255313699907501041842572720902371150135118662470152460293582806173581199908777968366067934154588444458499425582521255612946488824808720689422394744368909671325827238652989013752826030236444682374027381703189828366375683205238225311591823604414947770201582874288473207996763433796024794275954841154158215453892357404372388925111473815),
  (3, 788168502788909161878072294894625463536838145239074314441182924291330294632363898020989021381675816035641663046805866267655613365160439944455768156705946543841784120339173804714253420713356671408676789107240013642173710105251227352640377284421921070906964700817441901551362054481080484129061518058104908078398253768677070922144156245744145159832639072923979771275582792448389184158183547504644514831411419516939076204686814837283518154253269993886406713871449984341652588927007734281899827045643822430141360052639690755771708768308177335565829156106382189737980062415248025921978825916993337285661116817888174661593606184840848099016456405578321275519782683605413554722886556507487182539400146551497853278250962559794807439266525258928494449486851178002062454),
  (4, 11744625907971101431221847160080454700244041461334739840644343559314761975889860064104035815323528886372471795183507595474356612043983339435693147133379378078010441665935126017246446322103689184914183454323411191138233394999075343499189276761143223507806132746002702438106567479388125004307352275522126377797100749145106537970068398799659984705338464273869689871006947643285828592750184945831366104355624608947918954561454278786234828394764069862850869765694282253744862369638501994936012304818324688734637297927893395896078509869431595674010337208222659702599827388233045115434061594331198747866541220038678158239495824796259723129278330924951011852024798160305242524302758902731380480680477467518252762159779283733343562818669603099182739800361031265),
  (5, 175008563816116771567193376423127274218857906182627973566120021929066806672362388135552940000944269990510818290464693240439245284259071043665604995688488752812302733450161308307147716315145629419597736810496616231474777981625129930662949036972868792829008888393680787654318920960845425789167765908272957470969866948501863151342695933575331936856187347678388504251941258360234328996392860201468558674389490618525727906248782259253056745576332349220921444829959851063369553688516615293533004788973044078724426696864639946514403917033110409460561924604326281144219508404315671952867066148167067615028892965035263633984718573967439228420233154146974511628934983413807873185451603333526075264308084682076160926843738691807436889690908469422764872825),
  (6, 2607830819727730327355762964831699046773581298926889502497315733567875723128950419061674773707155436135989700115691024667609412733600602204585149819977413904850225649031420175837691371368551692658629071868905666939538389170544295469864443495465350044205917245055448824976666584027490404086824743572964630588440104551641093959550498926271974099519660289263553980766851579550420179909361305854746083533607283510651110206001141689269607001495918117397700103379670240876906379050760765519624740013244098986662661604221506588562559092131106916472172140456161325113719283883215281181725039642139106808023951731251341128377787412936334560963893382002234843326609459083406520031476650190440974976042445604926873906642635573948022261434723733014),
  (7, 38859707411046778073247715306754396062695701404316566921730573975561197446718073175276439990209869088768805565173790226394078325235852631994860616624018757117543006673923435447181632688172931859770850418044711156778609591283564202038413934342046827736585099176398647203693786025456941188675533884360859253830315240497009366147972627375602336220736209888213187169534736566996875105937738803844840579235662274221556614332931968490367200661151258678206738828379830554799690936982547580570553200788211051885378029627913150141485585835018733367708403399551179894720002730797747599506028994219474707419716912326824739514191030129315787681958087825830328414756218401122046449656511064835626712366799411422273494326481945865689999930499),
  (8, 579054764077764422792907287281072081069584211771437032844581812255996427636117833484358191344289021026623331981506798064620469886598775267524430403471272544824227790145925215589726458313657818135184800893734561752954268325620356232500283931822282489189283537512997496183123976371540742943816391890657831040476489670530101152479240706199442389916423110488253640674572237834287808923985642252040514040524895206074828324579740991770210017778864579234313645404080445988545684595747258049637486148827254731039154007831744606781101529143448993665696481807726914418982988260520400557161878318221737246007083776806768395896843260326365438816907811189042786465605445871002938882654249855660313877495339463319852378430278615216746),
  (9, 8628588379588193040980507243887664095604184445313171041676131073474830800833073757355782260660663560429563104830783576736159173944574225955075478605497964394453582020788270467366672431136039169657003892864801909818563883388345781452958046374056972402174525521889291646825134402089428051468974231044319734580464507200272398478973518404356276838726149655703509460010710922394511236607814464748509628920335251626694033769844094804029045945674967638912544510082201832440382201357910120185071200525126927969161483933665861273900537883989793459739717855123667986676734801473175464151279283285953457555798223846249842601274494282191166314029695916865280602617469334220897835314303818967727146324079421127711987281236275),
  (10, 128575986319604412331886697469467879766288167913454339529218242667240363371865060290035341093848102695190356743794434916021811573871586113498739579401879972136819094729248739292721039520741092706576047731411485520281849554007437548830480074495926088127114259032745534879343724281928361229136202201907630780048139500622040010675393319194857431035133446092955909073512418901838529655453778413180835729502983040878331143810819301917552842569782507816216420698339915699743971937433172829432696991241867597314178325211742482894455372718032320573784242910732829038972427319446211940389001877459377594472813078500095596698530576931886838448112924549641437325156541845262601837260296792321218682911540966139544083),
  (11, 1915931497806376402555207870445666905735256789825176291603121797252302816090957228690912441817642788517331432458675427973595434037917645476739698341516851963651464800972472716759458773147182057895899530223183118109134578019491397572017909206389279486642990395914696676721330348878031391339543494610602122247936420151919722716143627750796935424732170195772586898110991998044230486003669324404065280248459209663911160509707303502038708350014743939424182642878072784877741340174731788054594426699817810038991085437327143016961064482175073540570509318922200585536682867253576552081667890208756432741385565596198892525902607296214312494121735183215459241836897802303994519140614206181303960911806418557),
  (12, 28549604085182791986394045806611581232179057446497325474070337373797637463971335123343951133156460352500251419226459085547856003611052713941629206262780010158590447917170416068426650362419814734099798354851947994666316777758172118246822196340401164988323903022925506185313021374911537637405745604792268905757910313485856692733520682913019290934982451733538313181862115831090571910720776948937079091340004789301592279647204898790377538080509322693735917862212653810475427534701273535282964398956072032727522934110341447700089210044187591864738535232250297090909999671581674582023281363320299398065048104953025371219125579164308613556818590523223910758214466744823324179001693009010968491746),
  (13, 425422252493840336596877065399461704972074291802902899296139737573230824827720748235940205054826443679634502816594527446446657234595011382425266597610414179542518376069820166653791820442971806736287450117646872917805862095328749988180729692286270335142670616849146875520244559271805549225296759676818086292712544105736265968285809202686239643916226204239402907816753295256747585649269905163218088738137181123915728545140889978067822922047424822797334585474571742627131559225422995944042878597952933942342847983645401092172909232587492307404772883245844015507436855411013307334894959273244748957261517699373918307087970910394928351481637426848272691225747321715291756299708176706974),
  (14, 6339285559860472926450924059740628376187001046581609536649878882962924611981522265612188056928313429350175005444802752829293269434496929979700842464125367694236611963358821968045708841725763778929225357139809026089397998084556311192821408693287824617962101352947158746723004568693124491353284711790354345630296231891755252603975075523350233493987116280785491798118249922829670338470487134910477916557800970707267470999787725046791668160695009271394056924634374304542172990067194425739652302084099425483094715084926062108447543471442946945319253423031352554139957482704127364072563009193272807694675473735950764899258227314978342081570360097289834844632744968097779257809871),
  (15, 94462715981311692691608131822058981302186862328374527940897328897758194982730183983030737294678590139004215679240267765958506903566374331410241759778937216017195760657769768954004479076352175756234308438596263916632503242560570108783564101059553393989236673011588435571238466630773611237902711507534300470803621886547733137070761256267878912299679698977566163479281620182175999366365037956283735019650817835505076033535798294775392816814872756188561052153445848062504124699657800964039745541459103760984986399948343619565455806238056742956445981539788758181685351358623811839885997222889644602410247572811660895058919265666182429040528328238963147797087696854071056),
  (16, 1407604157646174619966866550178214629027051662331439971043129695918533131222876667723517675618508311197224493015412505953885717743134116104397799965425390243786510238912251129061050401275637384596978253701273559281714308896073253583663167075210115223962615028196400934029198685746991801826696269326423115593248931863125162379007954243836982959238294077355964706586757133938160478837694952870564546661626317766805334886315043904059080527160281784976859071465128819899603705600051901726728714535355634673792570771120026373760395699283609964541223143983036712817996737129864688509581129866493125552836350125561159455659745728275428095617264467636440777788994704),
  (17, 20974936450215795933706559988531688288257295822075604960965062617041664290769050534419978791751091349083550170293636708764519061790915073519912361583492014464534971697811054126337921638423761495902810300905608524109636379719872081036316857862623262762466296973770870775419454064175364402334336479401932889122500000344591772243499074258630065396271831408895867944792503031533828122078258216469655717797766897881559291997257696880674828167037563210429594314160118135154603700504785521924361300678039098460806862850525481038311514506168500573944653161366999169574821710808746623253358265418221098779094084952506871227586732461277758421786626337873182766),
  (18, 312550909075376330818333625622565869812031028003627135768012145415569309752718367195427101727591326074057074938619683813520059910281227134464865350477278448112830097940728874897031808472033761380654726936006673039639538224337579027359438804725159149802719011511964660516671151879062718187784202089934541122950613503822561685110293477927919821730002740276220972168019904312781758037887872032608333909003265581741921089593666848766216405382123035544818399409260423597192443998767844971963433809886600173374896324302811250486369101375020447110833775700478336970553037932195069983496740263039258909300088570746674258546684240484224663199478721679),
  (19, 4657371477415805024181807422974197116673455059582399364829244396322508301626419532230900253766645879656926914134914931856394706819671796775830765820701099159014673500369919462457773215652015229771356685996155039066665444140696213057032805751638995853106960825800369091580378292188982936557891996054866032644370399472657542904876459446128543546851734176489896394121398922005021487296634059887444994113413998217287388989585004120540193460118849636993765595250580955057780233251605949165076130095759805676412653213439356350652561623814437995368027943665488872553142918401635484143879614826935461599848366476487560485661468101929319456285),
  (20, 69400243124601319792595616325351552913687453561758985591370528881587211811936192694766823258498994702949030907972379503494422239358302902815204349468664812430958054965286246872809130186617601361443947046937868581215522350977304772392404165143355665402218115714197890335029040160611017593113958776814729461735115317803843250657112275639585399866242514312904321891813217632077001751629693678131785910405802864828617612208503754020645350956884629680962512836345988313947139044887659510837142320615456942526317823297024910220046176839015404637478413344699079329215762278014217900348252780220915313852984965893241404555146718822649),
  (21, 1034144209691901799926096444209688200260511838819965505471386445784378227769377718787891019262358467324808700501507215253925654878591044289100234947631728834375114067871663672816889437833690663597642586334613987523548638090153109615927996712078983566198022897753088032231167557248637342350392919433336530393624934786723924312103428532314666411787516651842079587252044105496981170943004104769594352771939312145778333214542117448198263933773276511489735923429164435397738983280243781654798745355545707732747564695504167755280287461948374221925749714015231086989559181142623695179871567147359659768543949335777069899971982),
  (22, 15409949566303220390172249737526300553389070016443215392103589263325605210205580574093625236486769725752006478630113828985775334814057414071265383774514925992118031797880883109821221796180168741906323825338691287093589277418749177693247746111139410230487926270858765128719323236474951242661370802331281052323604913796788532393002996621671935523434139447363714198512470098283214593522231380712816109254641667818693141030484974907049624959678875350732484917397421591932565020177054256845726674592576494532327006908316332021412586784002189107154823752088468163624641801408928806857189845973533006273584673461103660),
  (23, 229626142476547068211022760533188291689590662962842216970079977263891774568044849844181913681131150212168790081592110231306781393499037833083650228001399725558132407037628935423809614720645081131254491587559748993718464336078601743180271180140069279528974388105552868973006654329224694607570796469940119792349125785987588763301870474467617818237994049713253304658449232741293362300085678082232959479604291068044761612178565697425381382781890630189693628554012218035120268980901509405725725615231836050228753255413740609806555601524302928948923247915147940881484368515477917065006917193715387166474135968),
  (24, 3421696163364456120297651894885127122545103176874551429898738522289570787072850016417829896228479597153794617676617357601326426766798463956768069088479872428747004375422432056424164991388396637607432776504155233408785825015285637128059136571587164394989228071355117395117978071314000363953271382007377152048648801317977407468134743422685647080502821089117101227515207443602442378288542437799044923388743485365799550178628944645041890895689230689668974446497013460221494454049977147646857126615291370432678162462880290202325175803053764076893995701367462494569019233383740241146176030425312447837),
  (25, 50987246086663843993807612283306227960364567888893953411262311373495620296490937716034500244684213357475319768139978611489034097892023085903645591266153341960117286077476025468471124639934251272789132244946885606777456775535429077268527993136453097984034241309093198107651687029996311757107316390880299096393107015292492724078344504187715728305228522744550814949362441077139161271304636857777329747304177211214371530573011720288761307122003845800553687505807900222133418312036618028148297470652478387709158708499567431233314576253244874441836126206597479247591529927085317340123655743860),
  (26, 759769172767756044772380773474368869667717335952728292513822188578480784542723562062300745318594773970176574113070646099582822589457379071468794215711255996825058550797045610375272104739163089883165541960997665029428255193463401157685041325337485939026389141516483138012218704394753017507291957500922655404409820287166089047324248052769130590484272848034290046537529097328645374469984913549521280641516772807150517822707858500697723849870582024010089693060778139442787701264999796694040737345479452468259395788405113924333558009011473823611745112432250666044770443876369659932522),
  (27, 11321442913528621863907289109742177570875247358571414537933799454249155291061454446052025933840792983325966806904534192377072909317275569907855901356209158850089588028148496305574061047124312667297803490772808567128006446264138835038021822651289193913733989842525742609744610961730491839600475295205187912618524079313303825659709291465284853362488162012508484483191739134713742323362169236808218474546060804996823724525988740739964578780551735991844146404531076189359367194382082759030615122980278452934735712482529584296441791651398374049038770496059393195044500012798996),
  (28, 168702645801434246657897369708749317688871135690382339625564209435122538969836450309336571899664297451465827329524370914356006820757323055086372812929885966332101643504925017141909316884343514849212817710232862340331173632504624650448885897566217280968961512272156250607556505986652679927915299081199447030503031924521198352202420872289463163736997141040571118761848425102148413664255613834378010433398212532138903665069946684924904037889837044346616073448109649924349301173366663243785876116209277653788500611632223386755093180696635900787491579545517781131408872),
  (29, 2513865318915758232144972230624397362602817053949569756173554203437604590800947700580009399349455497435716201804941459214031797956784413085674834444074123596133316211475804703562100483243815822142553593370808099811243618018994102633727876988496452509048732543112892250775239877762565158156560499679586003481652819223871483468183078357229041939649438644079012075449809735940092601679802974003079559620096825578636926430554231764684205035453950743388729471780053523194134311835005080164226018964633282525607018088585350243807899825333753377990857561733759476),
  (30, 37459512336786959054246131042009552755993858783685710373126778057777950030579383679926535477481119296486917164995394039363142817568546728576344764889391118230422082714375923627050228167233106823899650474947811660338098079249174932185584007228631973397649726700667158946731948909063913052454911477049463728535953304163752489826094715486592666057320316464369130147870682557791059133522171843018654440816697467976134353572499512681479359349410713365001895747733846335244575395649642274269669301932644183945571834115936137058365586786715066017468334819),
  (31, 558190231573387370321842000514411222278980296607102608280282885697155446269801015852787129245417107589347916319897682061242205166348021158223521186253296110487313311016200834915790381539361280558998144789752537911207945335721301508226422693271822709750188832420375065356832666229695208292796006394095958542579949723271646693204827970547903607394131390733742080767884905274474204454023394017817036369167155030501042924702107200393608251134626185922450503383609363161216567859589940179405287099217978372296436203256883910165573780163069917181),
  (32, 8317682617506196652678281076467204425915782103048303846721096123712591026273384926509665388545648866733132545946503908354672866558254080388300436530311347700466413960102212949332451545288581856474252712573893933165305573894137875916744172431676971127649198089082222280602581442377874362707508211503402756234833203093897953511175133556433917776180127722228152270415019161905560732367599282063351132111842393158886792499860967311614160181782209061645217662897582555084497302485316955512469673146147901102649880449618829852318094355827),
  (33, 123943129442724535654161588496971196322378249511842486958520056660660967622300757862771531768823398153977581053175090377847446002934188848559564896379580314464366644026372029622382693667539683825884054788558234059399894339154603040326939410249054824007169269059646864393207699961412212053142187872354486459571934383163734585961563757041350001636664603242689593474015386394232050233561863464650226407956731798850259125637558925829265565849958595822790088941129511322440057948226648847468585221250767781102447007160106721584555),
  (34, 1846896550695963735195422001137900297677192829725779398657680402109935397242020932775311645400872799068355277973042285112253516956183148154013825899058287061219910443222105944490174854808147010592878834066825214059223763323337693200753491492188372336692408019715507419638444663752533922558003367780360307400694945916757138287677408422688478473073653050557394625937977354119695037196126315383443161958228375397589534816687621764030858577595182082964482591212376641244804327054294248544116917632789764083244350959159231),
  (35, 27520903210281785356930226104526226187902582134690573791528946192710629064470841478933567485226285443728495806053910927657090380134927453905550031349931464511452770877213864691409093958260819631697467425722082499694116487830919949984857764186627764548745979592480372001805905246458625404855679977349199319010364757132290809110931531804032416701591886874005464769330563779721556876306447669664040411739024117796197640544244179576577430166895637700689774705204659330283587377375566559380938447855910376790611107),
  (36, 410093414936688324167284758456442150293329091887035575382842811833480433590275667293869964558277807291276690454094274754182851018532029597543925514071158535949182076412645946315066426529255099455529837725615435319630205061841032838486412066439979267452647263015094027402384185695455560892519376406787277617700435523019200172898919669714750114626641602559089525586459039159588294193389539305418063054000870440065757723805922996401665840837517362710861872881527008295384140772081372011796975891295748034),
  (37, 6110868080507044854272674895173939321835772572264605393750113425157672667358453084437101551268664111067007339806769412073237464108050310575126491696702816127973527854869454299295773876911324170031106647944899704837824166476324623638854991701961046823404109375492496266785487913802297906389336581444032546865458179293268927141568291155814702902791921480502499492775836238557875119666355622193590773632272102453088989641215150529060089219281917974314699128352003051299527605345868981603838392929),
  (38, 91059030301973892066965623128025819686588236276277980115266344326103816440082387394265853632519604430601110157471439422268233658493314841019011910210591794967256901485918700182524438462109340160086282779709854277601738656565791380471972696173593583497180008284225136559882254019087599570116815041570118994218256690650893858166389526803868537569625952142272399874082070001518453529151570151563917970895835084105746450493973040735478598250202981451924449751797140014446682241064304534510),
  (39, 1356885288685171187921846257567790443995419685189097823430096273513195163608825018916515315063589877346174570284358254406872893251379055396005688759842392727244901743771195955089562793914379876542064489410502902491591578341319706582357412972736751711583013508689441804992984856213804519755249816151170997451175784988856369628706008972102774599948352594769350883362316298847426274159290197271137653566673400767942286133434300534255243514698375272378634555711337589257961126358137),
  (40, 20219166408258247195509765409943319022587235051231053820700887941020655089748278542109062002056686242612817440693948483569516140988157024920071493980920228235401950290188808981311730639522995795465822196606209157585717756553345283382865886920322745070768567640543070655445728460632999094631878197628687426554782607835389898104508616060115357429275311690701935695178716352577919295942360844295141046463297881424297060573266296882034701356579794256813109685504879907600357),
  (41, 301289057854685890607681355028499946334767863917813507030917524412582145478550770016149610311637613812279961119502015167020501807155564798713795797573523080974558791048139872984781489844533567783321417174190507877531604882016026475417402564690763323389060762991527551757424860615690562769437671927739521985417669318521958364998763809975787950618978336559515572117469832742095969317940346251385638941497616367811093310905815611217128157317551527880047335665935916),
  (42, 4489556817035166779274960682220756207924602388110958144529424971529575369932513982298219357604348865334391014568537699684806195008092594199959046605622206163853219403286873058133811408150173417707666551947681951978429434495201439781692917056268581645062723668353480218860794003633259298424370107372905417085700189061926469196838884526621164333052939200704591847368041795487563584925749703628020138495417458159841501121627577779765685765499725525575324059),
  (43, 66899609819578629423304806384753528355428612055047722824356331997060408740230113004121472799842787762498721697457696492743584439373597676397406181510415119509254804985305989417744612472402434004906461751080063135325069104963103758009798264079130555424339567294955333620771424160394205098821097013403610900540261886011116303075514639569586836824600358523194852065301022708722101880009709515927842976014849094584278810021725363606724254513723246811),
  (44, 996881869727054676760804748307966118386814177856560391550605475858754049841018214883230221269172247685472990534569270800813676039781502371673307047715895094093173878842678359573512081580270540002086459821292107394287006679358822358425585014246522978621958537561638430490909569086997921261481331005659250629358518894082219060975687702034019755268542584729264047121393035641519600797111320493415894229514136025666900334312687532548140017440),
  (45, 14854697432027081798923086349784823035997363595017200582483492431920082119718465430784675795870605821691050984480638337913816851166859747302281374340082472706748892282085709262447958623671329187181991485232399068273008263878892579151051448686148782076766250673752622412450562809749279535450800011474369194183248884896473004010119881135528547851263228412646780838989509168352856864575058075335455332423732370413130189961503063810375),
  (46, 221352240920470383747266029563320026338061147853988417722038811920882495041466734272013243971327033962176133367852895639905139811137166786236878708076078188376623248664394776753780955679457225045406309692783408740468114696544704949153173110695703598095010769383939074053618106558331917353045321740734385922357039254116108031437201868546176328300223436013727301464380317068178483186185232813759308768953845567251203639031608),
  (47, 3298405422575330492068320953299403583080487666338509585291725574744976983092229578972060143520340954924854607498547075813227582584694039027401475814435721985659162400841543081194554097359060611775589818419441654546013587181580918385876219227853280950032003846668417228096586006635743266300893846187435830064350883276698018588553561819128488220815627161220531367324023325472909556646776972358098090027794528293132652),
  (48, 49150070884456194819037928481391125665314311777629101057227336984052911148849570437849464296798135878061516708643543893934562540306152350840878513422406007163349784496964630145711037406552324615893526099215009742702590586267223090087002469739786525296425303894706650896100524612805366362965455016652862574214856974785453337085729122433754648687614012861051970647873453036857205800401388025845390515246474591),
  (49, 732393128938320201919047958871589983482872125173048690814187183738543259335302866194808788598516289981360238404955908432907917443389126476335810010928648722837288415755025260423837514280039742575546997304642751174112852062842082666303121897333591659535976708519855861675003518998753398319623586179455016554516870022609187069154331828105862942465186868286796840600182893816795343888795536119214361379),
  (50, 10913508071576359896645664555901139728469731288746724885913538690485704829338220010728726463352493335987955101912442026622971114883730520167021240464546071672833776934334809953415413679723961475021122928884692911771381755257518946656792720530212339519565378604733286516669282011321627462651887271715901091636667992858343046958074620550329668845716674655460628780529914404497228916317212144567),
  (51, 162623942964916823754395016370730694062556792627971245138548891104574024275766985403073856138017413781695963254305811520799252830276317120748605991688245742366512895365131360983647280761977434662898757369884994108371721198545221300554782233569355558159429488831830232453070004503079783755642541374387886664933750627416434521222107947402966076390108246925811641762397085735194061586614),
  (52, 2423285588099313136255666857521693320014428982555437760629535285041878495357153952548367726034395765380997209032215493278940028856697947065874078895623026885123175674787115455538569428844832343984840723578404840541040780049907753776431514727099480632216510239393216130937070873781289460477105444910613660428901264906039824891147250497315202143290940823042872798339932525342114),
  (53, 36109769166995780710215372704292734265542462208203107684230165423789902505412535512209548767357322835178868841345326318289439249715108535088401603170332890070025941841397188928541812820883164843701430375790806441956598909920179643039184606075864801085553387781566329922772170548718414014658425987779567776632286567192896824861482799328440973131588715663609465475225013),
  (54, 538077491030034135434260557655881855868435910713745197984608389005352584910994358033631595215451891429200936191114211493240056772873977600547513228946619150177209952182563965126423369650078066579653046599762140454067075096251531166843687939891332182328013320307224316561941644254070857346214709363879900031685989383574505052999191410498530863356625897709248803),
  (55, 8017979428619655004654236997006563272562226086284039934072588859546324660586323863058936464989988839055847364375318079172392877174552439624904863220190930629490156161044410750058288497668468784590618922760723983693594683424331231780215753857699264059070091805676476907332484416349535520590065600248795124049256921710554283115982430600108147101239915233),
  (56, 119477203914816007087442830254785613828424091260929021376623364516186445866839149543983344187816550523131093999565587764818731520685758598098337524255907759039775342045526110992721015844724182076910093722762605565962655256539015429510322892847059927494780854369423224952411826007567617977471697770951907008067929813307924912574108196492573662146),
  (57, 1780349074524879561275896903471694352236080980549849141024674226118065808432924942979105156258614359723994866187448282218131280205728571776028859331571993230334653695719125076598271447052324390418055090597830688975420599402585302158517344022320362953383796190656186598427568400842053677318835794818112896460468658771097042248687711113318),
  (58, 26529268540913407767553177033436635819530433097435367341722448035521407554385233874299119314308710636036506604244560316802670682124095408057411493412464034114508663734256293979995101361532798311819460016627489705370714514014544324428613914080040150813745788005363689843919279325195326182509543792790041826800774217512812240104943),
  (59, 395419015943624071622064942206322534039277242279013886550223891437455182995049265556971508463090163386562493351718425482752271901829386242914359843448208012788592670071565920969647147406831424377026304548712229155079121883795570099093793590165772479181829381459163060598679067630133566757196798434436404335127829063836457),
  (60, 5890680952094823175140330928574745266218926486645609215224910844288975524799426279930776837246344118705503372887068195896475923352321679067987088900991763434259129806174088352265924687150637922359020283971740698605036702404510308991253588629054408656124075610831949325437236663280790744768520783849478766919560317),
  (61, 87777986408692943679397269019099539522047459035767229636738391359155543984429224180992942299622724081068640318140990760210307917336400297909994346281340966730019045264892286432680320917042876613226679047979626070977650098063264260366938098549268985912016791202425267148347203604047726665700143484519562600),
  (62, 1307993924747302289000104191200857176860849916514946362104373928102138403514842994288105611990577904714334259418887044282034947552567522925388926674934588672563850157187070266187055748091076191588137480763178620766359298906604900919166394134241377099507384689704847938696560873505229126726375519096),
  (63, 19490628313232983769985034654202885058475964909412276262115730291256778140662179953108229954634729964807060805914474626102390793715884849254907915473603695566811848016528146590883906806133248130538274938205530048773993877448162133914794430699635640968318395563401492912827720228664691376333),
  (64, 290432994264855868005191904673458547267710601184287439741818336914610132831620652873452363413608372589319828631479546833665590687027421428882209988855487448928584364723192207134791146145696400235707271639056877645759320166822448466241119096615067118016434727492902188527429825672861),
  (65, 4327788863552445323003556094117500595971391270604819927879200113982485444923242767496568981309205818753045941958107440400356277773877617953833240254034359368576703600033023766606450969419730489633986639749839603481188292666955955193551955381380809258138279135518983499012844),
  (66, 64489077546809496750084228675061659715886918725625424317184980785493904886401791446280911024140390539231494006689313614274363776462909573292638637062708444676595744679578421026302316367812553402301527774443698827559136189185798898419784454913584661216581097386872272),
  (67, 960962168406467884896736061197345719545450716931411999101521537335914934366276739557426174405479883349520889534147510062415089518125472118918314297110693725084034101525674036585225556569525000066019930048825223448271530919245645049809022131194614935846029927),
  (68, 14319465401954580467551003275445205328103924864462671856845179235685367260638332486671239477506522631185947472051357817845371863304143787614639580429736154892690960245533705451467997775359756679292318580213907043529398917823799243555122497720888209475),
  (69, 213376465031711015808734866868927275684841927173913455151151760902950371283452763846432477214202201291159798680149162670105270256609046614615334100805331609406704526976588922078684036054565147606141784631585317005798845142688411231851542342882),
  (70, 3179557100410923597346765799345489368257024496570382066985246239700026022944944576237108312398802535230448662010584716206929120607409448005084727353522550631484183636711001457664192673347473188974455819372504534298236889602363803898482),
  (71, 47379067462140717744643649311981309644965394346602862965083007508307109433563434865176943676597128639359816746680012434250922402336880562023550791428221041832215470471596198337758480283021475152104854220748296518228905740060792),
  (72, 706003500197311598257294044743947883610882257778436664286337519107906531609782667519158905586387822606510921144433140788650327015997812094062165396199863871989158842495329221285621686322402233791921072076953869125162989),
  (73, 10520262867533590711455524938155369448650515888124495996406601041206848860675212274619703589598813435487757101299058644953282160061514714007892774579440323615471634442370586748652797096167896858179180785090100123),
  (74, 156764268277005563656021103791785172931628612527471646840780816772109394027004129297323463510214701870570106856682291535250304743855091161076067688208721603013084203056800693400127343926715060371813865640),
  (75, 2335972972662535703228690963319461067269977553291384414835502772195659505909919184260614416186968911927209919256204705159986045671328974188307915697754204474290041328558049671643801413162874654383),
  (76, 34808660016256753368271628738447334386233976363854458502134650561850410241162854172220451813828461563456084565989293883074061335072993873268340136833481875827773291523084768757974315469049),
  (77, 518993438360759818354842808299993280549891554546576435795890815216630002205945670117854709135163637831938163521207603914696325160875652676653653175891924732142021182837519309473899),
  (78, 7729075161006781178842327896615175906462472134802599751158309060063506534774188652773526750503892084977868555395577685145280814816311400318873487485405254721161873183584482),
  (79, 114976949713854663255410670358300790131522578250978089654396546541538748466867364480028490095064622572426397595752812676395432733122848487538389046352493825105161738),
  (80, 1716199440606016934006921678026223536561142785925519104030966366213441388467039495432616676677429569026836174998059329583337669288447771323338825168010923992),
  (81, 25573364505261446478255875232246305689286262005631106772061337544361902476217123984228605448436896977841814165209785756958998156044731822014773867649),
  (82, 381072838118777830725783209040990315268149185148333996283783844007454440054755211796030053625006116804821250095956482733260938751063330863453),
  (83, 5678427618174599141889423126461967083559910921024531788475438491338116496704026497710494394029268938825253303364325635688509651445056),
  (84, 84615172831201227446580241627667387501114486159457998553292839805417331008932180612217714942025640281098262702338880018064575),
  (85, 1260864217072990593952412639572429946071564129723512391732012548821660877697006291406037756357017291917271419697949561),
  (86, 18788363899542370089665372723227767465553769829728770566695835359750607912148584191559740783694747921973128313),
  (87, 279968096944058483358884437012340195533761296585759088146967357409552195727495552482656151804194171914),
  (88, 4171834573339722483747209098111570192352964842934909072667690664926937071762628390770419258193),
  (89, 62165405477560996608948407193016560578136637046073676905046153772682907200065797949341),
  (90, 926336727702050024859103315300555214361033299453912006278385469105141294116361),
  (91, 13803545966791173913939320369930512119592298271180063253929855869707726),
  (92, 205688072730171021361969996905645553853496956432631521901970744),
  (93, 3065019078622518517676771370685221314700110445444197862),
  (94, 45671926847387085294620732473894372434323426003),
  (95, 680747995553850872303270929183128330357),
  (96, 10141204952592544951680161146768),
  (97, 150793794387865541633150),
  (98, 2251799847307198),
  (99, 33593957)], [
  ]⟩

theorem testCZero_ok : testCPlate.lowOk 0 10892623500000 ⟨92950289645899, 39848444114101, 92631217325899, 239304240000, 239304240000, 163157078645904, 0, 0, 0⟩ testCZero 0 = true := by decide +kernel

def testCLow1 : Cert := ⟨328, 274, 37, 2 ^ 238, 1725347129396780165775449956941604614257812500000000000000000000000000000000000000000, 0, [
  (0, 3235593550518820322790689108947139618842394642826370504034936695184344014262718140262620031424582734123442999366448989949216852319909801468975200475060881918595169607971470564215688531479255760731034305272482975245564052002072680828367431237139441557429854047149482826741373376097143587717370781179119806409212449154245956467760809804898081255474601252553068689906521291120101972294605209956665800314357331309951715544995050296994288639681116669350308497719255569005772891069385071279987478729481531749342275697589440881729928889032371364879246361201957442892851536818270905543048282462505106557687982717418319758315024295138029564085352551595072840569614883275597563854907862439948315894600133379930008776300404079293001780866158453280865646272150726463757591872379859936739968973367930090170331041054895463454303079954641085977055197958346651517586459918125886575130397010546073922695546755168824593511096759596300150324863644826789586679699210185217095044381192625374862033488740281533936120104564756569103026923660851548091479090728604955185211149579195387291682921539577250336580797920282109571563581872914409),
  (1, 23542041530300196047688143945904009297682166236528213660021259385280020173105863361434749323413290651831215650355799807215348499593600001164124117895414251823932642640804046562812353160401513456097995405962013866851077560583309101845715713258974149047788916847999519281011987012586495167614854153210179403025631102749655521385726823099671173662315422935011656153849044429953952001921463015290397745516073564867486970215359544796187318859164345990213831084251109634393454260639446665882041843211347671963029102317446383543792245393214189715794392113471676150896030134887193748313062551187650435587332923877826540835049121925389281121680001568751889651976004255907150069264523372877218570580807884598508496300000638090099012320080463428821983866678495913035748960131378748417595691067068795335288364805230473354374262210692378425793501835962279585319949300150147226210087633610582083400083273339192911684756178364273097315084346484557197058954186777725968083084160980119230249917274864438698066174930827825894590098765861595374533664491534773577531957144509002212709180505609532073412122861398062329182109),
  (2, 171290896325810143372568883539526790974793884645101306232545607674401400240500976807632464067234036715171646576751662412537178167211823173886835268752578499144384423858748389195624281713400803390672047724088871232023503111728562375688603157024584281664202839951027412324125085525058203839688606627243130082392825735948685333902007719004695344936884233429821733107739742481163935749802207394462295236852322449467370244495101686306496549944599580996246594326302217337022406432075125237184997554951024881760743317990610256265734245194574684979993559780062613942544195269053989237822407093973382402235677901464998582633061400992236384555363610358234291207932160513332311738761765210167721813374440387793011717100279074520523932200250252303983721436506168061839773394003398133795646398754309943049850987390992421086145229799157865583141587183541688116983392390107533131955638716069245409168008088020056292441168939396919877514238071051688665231912843634756290964102835229114961778239649359161415790645056554023282364180209545009022729984115753656504162615279151010338373726125540374079435781536153),
  (3, 1246305301362082124779181929912933199192003555400161030648055076558385919201107585159715847601430408505050920770384708976323441072685987265772093587675615702351092650924317343710749131521157712200307634514238970820031704437340976260665070418505524006208018108380401189236182002969567866528003699402638667978992640098649174134348924555558881147130772540038900719866358431181025922340648011555184313597072632179096182840986160490912854947561569722865872567681815543161227880279148850511301116457260103792656033459866086605075792214444479650264791851659993800731493649575379016735113743154021957905465954547006061184539225789623756646865994331423580069468852849738525793113573253054621077150447523618895958058734944944709010474509727362836837764604418458053974123603978191473264554773944827331006183701303425774413637291343936141737811359895997953397981752129147085830133113238842307338849822525137995641845867762211014820688402765391123432342022688186341192548230856092817536097610015487713289524533442540600493407903716232240100067711879614164402814197847490194267859697414374386588),
  (4, 9068064547042610682395621042181542719423331112194581005664477390807485202102598742638044114584266269994629843643522391913018080760128121370304823996234450186246923483299304961916271215313155787591732474642332605581262792383065798353819048632471269274596256643274691226806186044774715748848420476152668328570090234997399778035097730430125965701378100057182751478586276288704727793379046572628316888564387279468764484343309308248811102730990167204187837834483183856072922064625518764014858726712264642939088178244609200956443908321994819927675357406114881456098327541079044871258620282999050380794351037462645967275541873206075929161237903961568761295715916603402239264653654495551570616344526725012895855131771513708977824058980780884119764718787564163809992853175192245109377044015040357956991190978048087128088709484145755374310551274288500691960623583196324732342956937052211524887698568233500927507649177530605786497075548259278850143823660043409544565250428905294516687591911985242121414151031107902801639229324076645488575882519201427692078635604330986388890960575),
  (5, 65978853286961462307922345951239860146767249623332325468541802480522057173239581917281932798390817115393509765588695823047732707055752117378177528707852253764918157563801687224740971689702970525771761274098626786008119178463426930493871977032331555343962512002869998299910992826151164982354533830604256425941204615791501259337366576292886498423308512844834705746225345419259449360681512717771088417534973119245583688777036937599849645128343888821748535225074620801554716778813735902184698546714677962438786767922350561686063216780856745955500500030138074770353905777148937859300496955369381751202948095201343637583416107163492120522560498742569797900613395563687271663548238010098103546939656042999584896950088209795979697097102213544944542762402499925963941645729664074874415031438584983216190365504536755081461089034966538249108674425365679574228070521271738800809840807476923775417239705099272625302206092531238977366905011802807866760253418769038034290959702464613821386508161031505115365955165000861688514601255419596800596927731551179887401697940089822),
  (6, 480059339948358409368100881338176696930657269137244478541410371548569362299455547452685516315911206150438445660901894902401055930064118855648685193648650993163160147114843764755212554080229678407862675333298297380738361814753639413494034503181549046304735471515377854665792203931422882177536185413222530230568406228787362192359917217202648305270911899023010524588064766570892602326650468732776705419637241860950479813451507198623218901981773442979818611821062373940037772836612827829847072620138918591246960334846157360051170812081958472521368094240737808070508659709222689337289820956258110844413043179824178767807872818708882410957197821822429241502163675153237773441982947709988443418375777300287209465981845193935820829446413257555454048845779864745455207233549759980951991825551566954087587926387787278765900674852791126814109730773877299990896342013013541208099280316591775465946813365613280042053310345538822271075744637869425646310150003607992833581123955767737323352034137897123191252768179554740675391475890732710189770596659403017702938),
  (7, 3492891409757128053520143158225813363465256909965279035833448663096128164757505491817468401247687915386911813845668038283482426268631525859008872020412316437891860165944990620156841425925301725567716314495907116948644119946065179927202076237747307796269418551785768465675880753634722220722587265577913278179537200985850083760741961430195430186511016647440632547572493542763496242162731277732940401035282716191071666351137589653249734706927654355093681164879398230841891002176364620607979833003911470523212922379361097119189586461885180851978425156563300756319287486312035144355891312188536181535841482500396027767055274915661041005785475972577051639927045627543744184354880039086179578638944960508768162945769496206090292736978765702702553973437408733489363712405336648172177554753080018126060599305836423300639889605064906939258740307650480149074649926148451510734545996676067252977688871609293777637916199590057716139147521015771157077588439815096828338471313932910621105560580554786386218218659448598896867165275050581093305555832932),
  (8, 25414129848338256513817346118054508140377997988000272277229295745900367654085170156158480685900488718375795097713620913298527202777270037469926115739598145867725980977011135984189178459384869533588908339849928721004428516215304115955965798913874516411083594370471608022314327198799017210859072406149886069612237049920441377331313280084544604953487699439870139377107942293248897783361690218829174417153137009816940308891481178967294797671839873911039330158960352352310226722157419285271170032530146058148332830601146976690430794128661952359677708275290939173423141481051529897639838781321630561472536344180256619824245349662429951039181333118205560079375086588519037390595078910512846123264998393718771073663328410948530403733438113251164279721423997442172079483807198191550037817131530646021936124236374534731158651407718090074279830526094811351525789134618772950639146614650074096109668817816030039936208462450065970266627560638486204727967875528764441938588917870006554992102664757657914474726758835169528310455962396621306),
  (9, 184912131577863012453725576910470467849358086736176281390575573793469576442186154280778142026250779733351337910525187277369893874691261134793793576970333712726467499866056721542475704768620704515989261125286638860448354653019517106847821552320052552466830779816312191704596095942535737491991839532783240935621412426702164356038798578698658129385786738129319123815424553273252224486799170109073561741047429748992292362465240723157292797054396024839947714346347146436966626222110202690755031890367871224213252066701148408832019734317596538746712818649327812988657473339011462967423668208043438937337774979451474890702508126084938218514535259588295298703153838095762796551002458455456447640494547656258065079893611257188800904276779026741177676427950435890545682980166524151234161990853637641364719285190999153801566860066759224549282794451931986273397089072696518265188795361113697238119837102510555047307407861933223241698178997998326528186439970494300265486668902021089322893715018287691728692007039963699402420777),
  (10, 1345412831708839894081215439003939302706262145774790270592897823323943713637608411087262662667859547461203604402000108365390725336992626651727140247896995517123050375565484293783634382770256375922976157200803855524633797562415690531254378964659208959105532120275254359182116575121004552725875979615253461347466599739725383959294402875083746980714107762682536295436326714649128731156809736487583444548708428548651080654710245458098454379464936390576969383592565619888530827462892940753627276647369371670452907468287946604192400528985366805949327616840940105372750420100758353983003361941612648753393399013927909481059775528717436533649965121588879612742732391738670514061799921263549588739439679996688391522089201635938524126010584622733714571021347492221545435758526142592620269503338460136786357705239828482588248747556627789100857116579868920251483923779376792059256028028078530851357270268744919314314374671878280577608649069026428131852018369385161445922525966705376488126037911418191134719026941446),
  (11, 9789166737092017822442106546106073821329207172492098984315073345525479188928208976629413247194749037307364083259017995190448166518709525202045480894572359954494825619370998856783512621552336902262876954051926845019870943814863061788887563777528768398810149812745325901648295804050609532902861098520613896452898914428990857845160665420435157871645844444592776529580636376697866443696036996607897487037614544887409142791222587825166224352614782332799000022296718233618090943949158396234468648962279051705648507546633106968799151047048581272594956726254630085562321100102139314557020917390196463628378317246481234511315664349466287303208149712728936515627167869684663685598827201233367734889942227581537688378348243404006189034153814766228822253653731507407056225693247279211852421327180251305027836767683385599315966060222968016861328924642179445176674098162398437323999556696987898223044841871662224390010643087697968217758210773569011572867414569973985803533693718796113713947171046984623854),
  (12, 71225562257255790045325604631988053889139025504788871216551876172346813756508410563615421758693621357869153749627133912803024333834106256850976794482065888256291696011401646368784077796971082732946356948028019142074269939729587799148339863877690865765981651295044327719721301430040399521406369593173541190138340712503056113529314937626151061497845835726131747139011250522874371699407034587114303482213396236237961731903652164511486075590181152313009079242305002361667654942351207109710002616064441475505372030102422343453704293383306213068569442254265834642303226043503540086131531756766648889792122453584339526916037868022985374223994445355137089688616424088036054189783246355762322668387734533198420524847789545454114246841830425715574265328424769584122253004001998200887505102936348359242573302234458491782702478724683367330247149669580022792604740493618402516460617203573830621900769518549716244173468314408055143935614647439622595280825753137920215672091542113202092712640000),
  (13, 518234172030175905422406537632836653859260153729620442147656839896421397545115982674290875429095622951493378420324980927420433245672802563429117395441178001465535606340575369313476241928373075883037795924086961473762275561818298586501185955986808881905611279180770563250708084015353230071242211802553656090009759009285015880081591149982349172189757778877768921222095745345536646341548727556905239778377262964480627356560232616258771126669170570043272740748252562201142827269731839694650280697281369637074513764549020707559839609401221152758150740457107709673405722079732312207580241812332220947378214759539033365968219311417654323674413364243683394447667564192705896526780438295111476023411464906704820773322006186818235118368641144314341331334076977191872674794300216984417891843811089582990756829627654591693379452660140352357675577556542423233114001189876234251156379784382072458957490379479251086588842816220588880792109108535649382988714645692312205823770610045155),
  (14, 3770649869913001787953591975622378623369587539706993572673359011943258501888456395494656138391987936858592572537054227195188528608361976246153916839402358174742662277571619556063351351828700541831769776211054424302436204465763138334304574207539618378400419017858589091707167128445531343977506998653943127210439408440179365280212304423784001644451620660240361184857434602931146556086232358625458726443883373318244611120900900396072910565047427153646078228108327036906432675239425150323531288051001867044843997358995891974802950298401675812104491676930142888702383840659282489479593334916528486271227520200328918887185160663244039799172773811576260128841837108656899497016553257785661227050474004784129847079317122872137911315698397601426500993323158216367774901539484040182414836148668823089430893025717296336425087097226188731861717301158068761237934834176606735258193013235532195714074168010706343901286972896636073845420278108288000230300072979882129658126),
  (15, 27435088631413249735149962184531458648922762511261633864148163498199272012341362973490730934950900968823353269086904963443437944867487940399979683857253681160674476105280479212985311109723265267033783138402609797066806673434352984872417977076399390195732259728964629842864575973693946027033285635508532339084481707251538793790767554483201832368297769136845899519229966993815808062836239395440925192407182281882302858291229497961997626153224170802030699473895416572533087133769248825259609227157168693003276168998584444949952959251151731015646880965758676985431359431722750751256172209639126146766499066865919628677787250909123518957577395451110855783128252974093684895378259258697195884024314614952511638190125797096674777513835151639084088168476970823715802539813661375456513838419527867327625379273209485548034385350657245859300331517371972625684758618246072744957662411877722897733023290970210722157745987394658222512290475016687437469150662327),
  (16, 199616542023528379905837662114437688789059484488546396199294857056515116800011040857430859868697741831589906862696115883907171845694304941571169793731341496173077583846173941950730740134336994866562477097632725759953658223343903845470180218954915400505213326897971491000968497055102096252327360238330819550061145180745652715200904309190823058949156032299258364358902086633430794338610135276692200513259611630072343238070821811284969052599802459022835679016828485858330977213409030855751813708977940016027646445571587303903845986836538343274718914811738950222521479461268524608299776986499583313151251843707522798564019185612212018394304173356386581302852588715496216544389070427727313998464420507395287731195920059845882550881894530572565353605210541720334150255379375680010902653516071836028161131877269800816222563338322278625750494156429482444497468211487473480628200821702092852826313294853612148446344789655860232744386290226189998),
  (17, 1452401498853057127459306954656769003406658044612751081871791808636881737038573489243796647269466061200291055594397154956147801172441576939099248511275374739293166085889780820803794923517394598941336714034206857904454651167499133192688024566122588297768476527547838421021649970899322188432614786421842433265273176808446097967687123376460098799355590252520475510092380039229689241173110606008356266198531459886524995367441601493082773614149500346850516470783580534491633011251983902073580383855968347749140029216891772152599658730548012587886954363423464989994698281040026117528380274863000859263558281538523570344965885207207859767851318401830436013182576762870552623443381678666875804667208770004307234448272387774191480573899511041682905926411824248147216166562993570637543515415582436246158079468434442458243519246959360641516069878275541986445917236808627172034621873942251642149620063980616233359032697741451980888419156),
  (18, 10567611744431321330625410734914250522027272706420270565080804289295932809462636136186459387459516155652025595150168773806565158683527093228616639035138175963170696092782460770131692141275522582446404805772231032493106985693878473777207724678174332786645947835843532964802943540411959027061055431999865928557651763610527981419633749293717110408437949463553926835392340139003421363108723060637976349961037775840122742865362681136195705142377849165135661110559246349266884066144530615707373380367984089971354762033848149550869925223543335987471357861388897185680045387312016776171064060615200076029908609903875084161035674348067017735603314684947463871823644657937158702771791406106920048250910754295206369870039318066916095759712161096071495468863841678949357268745900843523984882115266406177252366125512748818069888587143862933702881163856731226102077384732645463068964862169895792745375669712010109981333952781224),
  (19, 76889495135629268265805227092017961855361301469531249059079013308626110734349903477315524559959275616362178662894939580339743105894937567271820728166044689446940145664720772548256297459560465230944135733969095108427478303884552397191929956011694832607797782372243331081720997029420388768347441742661364904471351209289627014511161173095148918280304856769754601085095347218182151577702629297258509540996148831910415486093280786999062585108752312699916084453994910645117602062922997170499326339007459639913807391475880823718743982224416654453345824898411399215962023329610861587400680103157295000941893212936178911620145816485057133627803469207493269050221917462815432064180693494603548894936137386137242973390840523027325685764939680020422012700347227780045118694055609054905001551149618889800099900776807072753074513367040302041715911437550982147875151568786292790401882415112599278673690621380012248687),
  (20, 559444707582801262220929690316682985979141823696636486122435695932844178855520320047184392460325584516701773557687844588797765797753073036960418744755186267480458959942339952600423548280090218984290082400323409153697708853611783686151684058216741196576897217690154001187482186865384492327193160182369792197069554890110353986610143133258308213264571217367153448031570203734606559575350760840654471692659345221985244193612883191547005302946210056266989576340350448933749127175157195694281060699451005008014362139501607627787939610377288990866919968849515808996266926414303458995193781993714602443263356198765878761721963013233128766887958947026500948203560736824719047777752057243890953719735612523029470824172361760306938604554567337230774515364987514375716964613868237334818781651478615245525901769709932656789313444904428918876526717965950061562917357264122129848263807195533630152935929487),
  (21, 4070495979851703030151327332108361486310181671408910814515807548980550046366408933297384591862832781892952142208289621258138255490871037450854919332452018479528916650032187699983649860078659687018735584572448054340913286822700928941424965583550083076820717671145059293394167520930819535913128931005265565160294899324874524511761724230442692447574308734089961566726343908046012508387144486482826117518265864426728511202309294896357963303196339752318414790876060165526885284344579038251326439620520991278275519585229981212894867350762019377567704748177772253114433079652812302571857484940703662739063855983990097933922518065654861524536953193128441378202448098407199348730919682589576769857015844853198332922534970859527218312116575635542532093051628229282330867473601606420894949248208271431659250357559576074345831734573688524005414069952665047130773120716402884905065179130847315),
  (22, 29616756218105023655162420852199731498768827233353737498079190474385905300488294839287006411634740520770371529275796065180753470419375207354132139389199572029821259275429385161141179997347787772150590787150198989117876676192834048862459644322735279833583027874883986757734728751026119686962403146064502399242300447985140814211348509928522198225068195709099829886154794862130165772302603629089050658308691895969054623472667682847710375829065555058397549201580885308969842423847507594671048762820490598081036462661844768098994113070760925065282833701272868526709205912455137780025522639031244597578176180680828160922443684131905997501025337875238719639471218376964316330911515308022910037803689696655075764411112963165653881469087417326916724234888092883025417822658197435711147348133671578070597294540261616481057765842819242785499160035653135420538643351941164999432428),
  (23, 215490262912535571778152522545131298093247658350110123123734887299258154965997490502828487745389724446943521101462800762825306959125556803731394316049405985030325677329015053409538668328225232632762277987423287334370810103375945246534390348262497571948792231522995183751734502955704517713183327185575780453235350781943567666249498942696097934277118443490324933999762250911809429615847575223454348743023935113242478527481205228292082348805336070694741076016627953330575944911483064169176365447178704797485377610696754089902326642413586532482752996372402571329169025379928039131350693056800037589390498634023826955733180482709842629846578967031369904680729121805325922845902003119015582999788518073827663801456377975797990925937922703680085231094674383250517075999522288417710076506651339533493999226317861668630380581870529098046413601265060397753856547615139),
  (24, 1567898019220851505656555837377755219446027028244207926936614147411151170424982341521743275700935369582610445660704868807990765774779405937671212567143127562524210060139121585303936941841859025828033030756511196773286865961388286425312910783850366511242407661651633561645099710991086014205817825754462540886272842049537340544698955947359339437950391173146817411177924447929282446994725716040419402049105251111064479801375612727380826724186757771980919303158911173541723432170435605075529302835083380922856263564616635981771438722962606306429585271722986322934718947091882429921618724060371956324227500165948927617082790027843573322366585733140395059677299196006779723507198520143218828438858785715833372959825704324968975060454844575756334598709865371166759771405219676863337978433821499749282457847495997368703365593236880333487069624493899780103),
  (25, 11407959531213065970634894892120466243403112663103150603540519277238863072307011618408019972418954199984803895209223765472348646833993595920555617828672457562964773825217864834877669213469627908693168361471261572829730473759906355010119374374701630667859045655143807828754504669567439226417757350678312220307073163345465877098460303003662116228591120839314079869753981782455778695197299654924075783029615599008423338595404941729420693524956488781833521495807001734823829876622192411843915125381411632961126468296329179924004970324533706510466770182939867021230575793294527806315842761637892448856351471643995463678812067470775019212937189458910155740662297090815848612473581301637442773678526305145786651678328828368601487989668413467518771517084860692422823526415191234384177140101029275558845206697382821078324850395316047845201836884),
  (26, 83003830013426093287379589252817577241535128728014756078049826299239525340868652117264136704172081954201013251507711287357587184189422957719621029017962119272595546682844468413369535217277210239940674811596266029153270019450474901605916779769916543357678497378538361435890726494598778855417602976946452838507489383813414876192548421412809084202971434453283184189958534865298561340459439892142524418150661328140207332775658984838754589359041198249053606998649753085475577742398650447231770695552233139460130336852742789802404190559880538156036827970203973169199997304983268185095031744298360307019559150100537262229758011760381852388965414299168949750470052121840818022653582271763481239676931646729136780901065130493326938175392270841485552851605680202139957289950401872491900877431590595821518758832043717168596670665657111),
  (27, 603932348992574358179842160118406007252161570999413059893775980884962521237820707881940592081606751556690238441716874421090958524942274072379376077282083273694992725234220185763621231433915165252551922542597938657514678339433702797439158746928417119180656281085527454240151029768449216902209467494296061620898322026284694411097359417274196746684810492061357110101862397588278758320299578734151989357248319134991598514385662767550301200176180191152595915387837001441300812022886604879110095477003564890617502553656735059272561704187921806975341402376337595296317157813388252929934339687767831592431401365601421073128529026374055093473255241168966813275625769722813591092964554749194849569354875524714535281956290934045985733229612338422135472493560417807349447979436281342970592126519098107066916205976752940270471),
  (28, 4394186173104203467518106918712190288731374101185160251725581335522019953625718392736893962731168369331064157025807612961878174428000595597982290763190272800384211042795651779769259384439757306627521193459673221932568982734182666153640884636322277359290865432453046772862952128114187630869924523680645955180067700175893656058887131928889682908879129363621856046631478731653042774931583188490699563298765114161273701777502275139280474832646342971151693531361090129872618429170785571737832664654843487670361607758535163470770974199560012661754417717325596589011357487724105718043647177924822879744558931021560642288779471347541346377415672960232094975228717834147322768025972228337671789131784695309292192025609651818403473756096003526952645694113051692753939383398078349546461299031100660577336378904428),
  (29, 31971912344337058803052837310767720109516624515418954628152869812926073454041895403766058463451688071153069591861331813283891638478967038084973251994162803751418039921523099326945225653178621044408073019146637102913293221602963357535488355179566696164626522167622510262757366058316166388030429688519841548841706391073920939080469047831794379208006300784461118554561650765567944480888435632806633899647856462328050447482702218171558581524804512349556333479905842198473307566061325145419017783418965406432529162409854838310374783706994476573067412364562636028117866174396110554711307266157430686227937511509468332617052727468008773028476744811025957506225736346592307660886353592378543579131161213097502705323669370017613033571419538818284203129801810994723311506993407558277878343756915700328),
  (30, 232626279061784289683075893195693207304550920637986234419461614837390323038867030145528103919435584038387384439275278515443581552819283665194039727751535274375186708650457871604486904493959599090216746984127072958750746486497252463126557669453662646735221803593031001675680207396480301307968545650654716513955331171741974325127515488915756315239148757098842420867175739652423577036497402308967977406952214498135429020149791581109340431014097012406121652805241412363098211349415151149708641815991532289258580040583041144713137443530298873843728968289324971906260515533095264014280529472232849321962144328698197905068547394084645252738607956932289306821694044233514398233553803761610646594163153763803795514367059399753231844346872190198383024985541375969469740227041084475325740622),
  (31, 1692578946398747864318108573175364343511689517166714609043713534173659885992434502590390212713359389733431340131757886523290519492142511191152441662791063386067884193110933640888011028393227018315641522233833333002627088619172372732475615844695586178096868414963180851741928253588268863007895897498519449680202814953123888116418692257340971110572758851392736083355722763488796267248831863129103608499257365914008134288686048314198538215733030953552386850711597280851203525026564866592250320715820028614738938931708829494120467972622654020372123496191234037386869033883218946610018448875407062469440367354887611062847129577494680289151035302897015136864833443120407237645580493045606000811583558030138704981289787780277884637513895745650533654367684428309912311933967931),
  (32, 12315132672656530225635714109924187821974115774841008599059667424980288240421465180336892173460796691749647580813019060029841199081729509570522653395827098473585532287768245739338534101212477386548136726442559542211726428789351286340938647078987459667382561128493259106049141363388258024169629764220531515392675980801165528864499597566449091388410313825994937910522547313138135162743252509593157364066518233520420920102307801026046168709648033162772854887074771621927885766312823038994793061557438021837674653795317148096329679223150454532745984249171120257040449465017656248148890924710806748285725611138788279323447174780369627524807798973612200332117460983809781721411275544498522294681891346363043900537059204302524856998967281837138309217589438507649009),
  (33, 89604383339294365037026830468124446793620269271494242996120501083935147038002215997671680622885445276549199340028419537919698625640954630002107685110437876381806070914668422042003178657705410926050802856062069929697655816484994184727392327324104987691553550601334857536491833891234578859749722224149994364207453320664758069231510380784710811730155399854316966633169682665169144986258102104517618000224001730828011430475161653664255615311840502871695501770971778321673251932838798423347148950766679075346220790940383389979923394106844388647699708235914921651382343279905956319793348318708108997093724076907843520375735085592271604265422170926521797030106087933974168536028683959566770426106918060688266033839621048523739138037409659279019286012427),
  (34, 651957695221749345633920387394933254062345580834475134878597608505043514291189901979463179471243676937223058048609669916329575248826256065528342770342990671501364492830677933248830803915228250305887216062270962936582915546641700964591235441360222377199923725869703286076232049282842531952004568180800802042908180743540073030348407972514253459468840831666061462706341047940177367684036566655649221286342234895102584356467791814904755295178965546999006118306400600440591632028324157753093506344395704744401606688772063290759896624759190975587530789138754782310894342745887528942488381754489217108805086242651364468122288200095018328803308190768239336324603462347463786856033066690510968321135660428467590256412156528165247662638198940288),
  (35, 4743616556674164498937319057549271776678110333410405545718077399251658893562779863564815455692905211888305042874778663945686823345213314063791351293497359958574557770266822868498499184462913037757150712876107448658024918016175077097368451660151348751527057694849455895304795481696370486686244155842545540974885102964138922705645620762885970845975260562483397542430275022069477148833664450172646621464368350648466374282946798902217191540689007147736052230394568559645510553262848701274026218682237335610874696981780398208661910423324482311167338416479331036681502363776448863508152681203224280849053008939896083613243180515746896962227095759460074944246031287320201252142578427935632434063112808014122221555114963313788110439),
  (36, 34514353004299951855044630483820741768272348660760366661401912273516492085493372459057830970362594321255928974094994656812100026183276452239016007613808032755147416684971706625208747460149701784809809126280797126368451558054767353295526495890041442045141193611836643326586438767392232687945130357272592467280778639901123839017379368850210057858569689847157725044915444263359873937358362384465829277295414541329070023452077715684136349966122208767196853421938709774660083184639936318226428572119864943576695508680830599076553901452832970035384352416297248894270645086755502342994504620594888055231724785465462462937521746809734540227111485525806203247937032217772401064299476322290331332028102593035712979767126349),
  (37, 251124969540250835816875263727129944660354148514746096490139551122530917094943087861304454930087335533287325045202994492225843905058547186774492784852977149095003672737014906489703189146164381125780412740138105628782443513444505349915428385103171948057684576200603045093976772296680286310496507282367053889693348330771208437433327397327577684888847251065405512544293426496139803753570237933511316753477435832059292937783844480369098081297714010889982286230479311804097542168927711751779888573766093114432709559838171072101968098582781351666818912817985916888315877805066804654106579907584246507295585572282147667852304654287058471818848925697334577539007286958333573411984185945477347723745720723798327),
  (38, 1827174634237968972715863956015745822954007224432615450424342642673079659980016643103622881827230852892442817721188435769187664155168365590903651790380369850718151957968183753034850736339026342653817939136483660177199952256665737662821350587778532254575407877641043848656399196173424459764026031507504090157156065894939579231478719782887652886034084375870307451913466699005010309545701149740152025497540128385981356095288819165519974570973759432362553664499964184959045604569441646914696830814728361290856982898559514807388853689329149987202453289443892378909791657316015534449881731885527648131036306853690977781651459945356266791441672957877934969032922757621980272440854531822328881544289),
  (39, 13294445192426566592736809660096666069541295469626605702974066972623984183737896405390513841319122387303234556174636496647054912720111064779511447634870781990453193124035778986834708021626475548355796047955545219717896196064729238899528688928739220265475983676520842770046801807259191803362087437547595908285651142746376931568963529088061986247122218173704397262952934398051650544058550102177918475809445428044395498261687403578912652867736549113230620464270804748773676309586424725096013397118266419120241085522515880866967453524262232330016242809213285441926745574425509503707849932081742411646391870602296149045161253979360589880460312680650420575750771828084333037091078992399),
  (40, 96729819724180317954864656058610606629672805644998193769236000463017147439953233736672801324451010349026434095682900054431628906750928325196665883667234316748022633866900134212007891776931323319621280424843661427722144016892401545694490348117916778734986468740429612831919128880004769505142177715511718354774288453622296675978826065331030723791621046575509016655211011847632284710321428153957735385340790939898076059231372344244488090565163141878017703037519293736167743245191608693991720752796218412515122168691319691061360635064805066390441535389515990091305005175611658510715586850410027052429402203031783354844792172704081825301411474324523592535982001785534561612),
  (41, 703802068340739918893557158725238744443579385151666019877564398215451710275034083582233880038627906098746709872523934277935978801913212556949772142013784590730375449252461361262306251699462429109628358748863684780338947142204137399403855164804099029955600891141528877123080664365910946515998448098230686484417777127949706380154002519438211470433800910821819927401852438612173907409776813741454631463148133205475272548761919246644442776063501969954361883385945235834488860957753010849443036154618176737503234292045973889916530253592131673258519002363595471902221393933573492085716480383682643759282589899364949374798836507840751170481349108554559480009527876),
  (42, 5120834018021850489411424195897698114593945393802030738716453184427895105000309439363146375680137906592766447811474312605685400208408919257270260583127562063821645637308116351895208890988265607524307305466175886415673868747512421661851657157520466716014938184598655976835410950181812312640424640537175616577371536420083779594837772278313588017481038515842344098175481074820864904419834141264211834766676740770518129097239862363023684963229986002263359344050690524090218141525259833007185748119060822890925429212867249002725251393587611964066609431492781070903700562936209816619901799610714302303256362196537584157654951342526180758738783587207807),
  (43, 37258971264395589892311721602874590568491442491373387301547723359747725080526357046351377908141424316219974191418982173532170419700625056119099176307845933943622990386146068748902216788826996997804672414853222045900147790975992001449574452510898561588683212560115623404803582951702983461013662752919221079077220670650108740648671579039219348327594823763979684891750221654304996948107066012017826977956220848949509601912955734986932813998447313624888231369942924266886460105373368868201245841193135096089923130919172626544684938596672119591021862867247681243682761942168353894960532669662293445822201220168836207860021182482300914979465),
  (44, 271094695667820559845944237916225324213820876985652920131889720212695283993717436142843346956516501931909982460048793098628596778876272263871936420826415619338640021668459309660671552898370369064644899046185812777038965003870783871381864387592453588590411039565135303860615127219538536015599220127214082671988736080389619530893363247429562741214865634778939550808311894439380969565008109271528009430245074153351797885772441635339575046330662528444062101796886043121201216075144153749616086917041287056382852590286458464567705035594192770843387350986374165027163777024891807803341839538963281946969226618461557204746094260622),
  (45, 1972473515109017606635055838823793777656253056088847516598541698569135653042157618204097867103093463315671997116069492029990919246311185009292651109155640458806811379664538983023302883136164638962823595121607504610944221970040602285463295535585845014488118722783939789910357859536880123462323982529403756008924542449889821126657146865263990188791979083034204457721179943787227209360742731750947805959111821960630059637978428197605292813253392427886524821419528380761570580507688737448804487525561986365138687700270081997107710564145499839972860829347353375655184240076863415889628599523709586980241944387993051060),
  (46, 14351633691032603431340655070553430251720805653086045033695275913990449429854616888071889604202395009020052363601785997379854376085835517555079830286308179311322187845185211599910907860296614332325989759443123667731326408270065647367263566314846296960890798560702946102307024915697126209950717611953849886415153387974808173363578370176420549947976312938357015803988461890923551560402583458937893309694725054597552145566392152098983519465502905654689372710430532061943093313843900774281896016632255043225045192895470547554823821506198136248603425758937036164942790185831012208174101660999773635659333057),
  (47, 104421878430240055832405451441834376977355027724741703668371162449987964863646025246066635039477805614442712711765388471949407424637865888373545044470213434703896918512842595775426209925588846873781138153322800299690751868846823026591519630614899878388755176515923899683266733807609915664686013746801080526588532499439824599313805583791557757753778420155812045825321405418153098483611962142317648682378395008524397706281954054511560181978778653500795924675752742683729050975271491655356865358919232165517079207930967369712994791755931960116203288624164813084213807801886632603468294214998091),
  (48, 759769161451841179459046190035837767771991113293491825376776705161231547125833641956463070815354917536334780101354315359365233167206465079934188169102694257854062344913617353962164522116624273055420853624011374590564089377565998137032364114186926739963800617886484513850773575709057409447525970717210374152357567891025264036471152586569783363897188716474608380430047226343752192849737471324310604400900478084284835467713880070251373758138470068278548316526166522465108716766782041827743371834826617124108504848134378940137537049097771514048013141969137137724359163368484887283942),
  (49, 5528048215287280468758007846451348216010891434369054516550216832265370955616771548786077406951189314250476164316602934500603599563007484277227942520545057155218588848258489895231538821317999372778894784361734092603543773251846283994070404387483878109736913559341041480062348356357952726020287121657019146237670404463754460985264770234440428208534148390081474817831254040583932680986323728006710149568920572270227234029384806298356931359661765194891716016091486721045229057491664063450800157669381532829879261285176526291564241972566750146420640432742605918790095975552),
  (50, 40221844503592586761500627082214837835715235519230587790299736896597976415190871549848550902606510565115961267782790120185510628339053179345471557249420545523221809125276061528280995618672241186245546807072418142182798701580441925262059324105265772880529154255625737476045311113712436154649682454729693315378526775187738234593708903550829607859407080776587094075831255737179608305364898600357961964277302203286487850004392351952319368422044205351554172638986009574996706390101659233573283551084276081155881598772839853616804670249467602479058450514786779513),
  (51, 292652435772416260162576706223006751939212230494235611624751886822908830250727943945404982531915024217887890943313810138596633129889644809122405223607705422432193098662126393547133610333688201665658486797135988057355512122674251562643157446664878565929313468001172751001654903546386400005856387420439425618938317733234382496094107872255163103017636175823106939676772441548829315341795607417454313786555809707886498012225119914803943036219551918286501840977972862530872309150988706814084531693406536617702465557965601759323688494868883872478551842),
  (52, 2129326718367638096697750051847882801224566577688060436228640294383427150595025362067473502416027052126461421078172833914620596781588351521425219204014952598436115791040220215453870270163522044585090652682520059025943048647856543626425087756563513307154262827922010402802779557693087418105648156009250341708562735981020385117515162792133248126274403242234832291958614976554439663940819088715938635427672593595907164496839333730230880974100230046491537761839910692862486513949728489708841229160608324122273994237480914846044885364980484),
  (53, 15492890949591223737645123414752617836526526499716326528502153093077739069091737503763061757489069588495906234769229210360900018923018187464278398674796201912020893051765382141126618366803645165768337450261872405365226811938466742806553016664193740131512670641709339820101581726540176187112816430039559726697567287428790051380026383421891168565839533949839035583156391199857292899711994453017326181575519055967874301311036486435230928366060678712608589009471118258072291331010493716482860553334542825946490959026242171089063),
  (54, 112725617870391752058968438466782520384992754409221711528070439696168252732950958292731236268126215490836642847333596898409507213106214047569339493046365160531110851224191690367676402178583755238504162027009443503461171226968261550195050071484049245167341296231760037568101135528355959428581286327126007892953500623418687652702693706612137416253264485970739946388922420920136503354893354109504392903907660009433464026449384397364191181754676930621593479952367922082634527913923329285927228602261525444059948300902),
  (55, 820186817657608131841468556752392709808960236907368515939254565530819915672987541717660719392686268579601540413144363553468188706171855495381853380434002986197194973349121544966877120167744809074743202993592798529438458186268209589418801095050362571131596886989096234124888471438503522813455142751774104206081240790601019369745666884099647277096938699346016769981149514127665245427475440566817461690734932492788537739624339483153237789567304129143194458280031650928811219316819030340492666742897407344),
  (56, 5967644520988748196864816050167073824161751414377198449847056299857610785611672049768948985782031583679649827208583007560763843705336108833124368402650501526380732264213482032636262242853036283085279215954998435032135483174594257517197963492246609752955098471088117042097610119386990479026313481654634956098264299594373473317173187875890153616502415746980500789882313660455776760840288673984912449362341998607701153159256286058055162288640578321785597270776339869043556697887536376455907304),
  (57, 43421314024731762653052723809345614892799851878912759490069376027327733271117013606930773820166137199039429593448681487103418288223049690176307124169842155851080748195616146315257278057128372310445843962364363254500881355290430949625394598267854483201664035460209681356960816921306002496146500383237017826159298215305285283024768066387310533499715986339809294134618909070495833458772424113525009159857947315526852818798858674491449455821509293740799735910097916294832796949574265),
  (58, 315924470423693959780942144080477209345182690239245430140568135225873951779479435972962575419494537250760829839282394077743201033040172922045006815978146607631885482635432414808553740856549110395848006885814423579686561307390697199303230430310139602546156122334423675901537294336381275186724772534007632732786391904529923499847546571178897136162856694434672036481798087995243782379834478120774165780080098935342497304617017112816564439930825440448319408645411742717914),
  (59, 2300398097259975478631195364603564115122246568614243318450136424850497623490931903199097481248509469677146673674430011884033043396005400825397003002367642078278122217076810234106435343509919921982979699228967843196525997775645504185616356339287513643949588217270683832365907748543499417098676954283677982650695484518211797228480186589662063402674244751336500668780138321693160377118287172416113143256046221390287315338326111871089114514588063081381693121873),
  (60, 16724901774771034638050599992324742626598047015097564498486526919838997737350718520388068547296163070407357332954490976668923266130042079916973621617080497221811031377170688482138009996778963571204372622889510299298171274861230638477184015587075742122996443846661369957486646109992151101740376488283423199079663273501589588118906066380521962323238455191480094209513664844764656710693011704637305926934746136018441159045383523636486406858815255618),
  (61, 121689679550733705407929370429230955400790200179623762976454445713486706523480256446550539274452547011652025409075586158578577340091060490714218249168177517771435897226512703508936391097443293332660795360086089073997371616082082925337676599597422842963321118014883062468766894887676502300940598004566287827785710315142748029091272657103357533299593675142693078156482382676770548180422218612451329135088105446506997764717598524682772086),
  (62, 885409437241413750727515922359340258239229516922631774455590196483056260809152137609206490921907056639198694843201361235375396828675677888372954567019431785464036021442199627418791965246546286803462332609953579065640535804538135974563221544988137745791144185430468938332166951353607262751290395267044632971177974371658201899543189754892678816650262959564374986508730129278172792322870099745910526098006521673922254979845945),
  (63, 6442197995018083328393168103449715803944097202718125069093703888581771726408784432284025163333430057233127655174080365479132958618436106987689723731725320278767456291991980513873521345496911775452182081508221547210251710877700656033595293448929339805394875719635230113427434615587024770701716103151523907029067012763314647104972543141609944325736584552920661705823018681456969643956956803136110703811107481354573),
  (64, 46873244241386208446225618572520411861900994382236505774668500915943217010827331922668738161390877292760968158694799971548549781711817908078919477221886585379139823589573248486874082938478714119110893880321694648271507439810620170254128511853300964102502754985897838079685826455066686461610354510698495786622805697168423371918156329745944147331905229569334407309391236655814296983631254865177138927849),
  (65, 341047122157244473176500015326186382934133148386739163983250194568190102205132428496983080024177786874682090367855481710757121880969291442630252282748462222248852547956292936118249659473246285828023881724274791039709703641955740471745127658136940457930744625068742474935412590995004118129136864605983717856539259181841160656397393250033927972539394102006821666540493667431238579839506324963),
  (66, 2481453228099556086958104646420026800679943047997638949504205745728781422230288773296234638729252434388390220737865962921262432212436555331846888649216758914636970305540847596933721130087183125376034378887662836776493630007967239362185096940995051879899604930985311521913161279712483780798363654712929344402245108574294015458472210392206232780604672338868475908863445751838840284),
  (67, 18054884314590511808736062242682411189499589837596157338611142277700969493976559888662995116664317415258162632787838759946605429011753645671775168493333469852657329939081896815233555151526802351802953033359526001189371463272451676092958216233435767670834973531075163098832543324522275550556350571382002455889075218295716444384818015031999222447519408332091630518255389),
  (68, 131367332041566714158490554291015162834484483493969160617899732132210102587892924489722557949627530403646614009413004431907215047466041100322394812253240148723423743439443252990968446801420194467565337943304424905752096197911933431161618475510358133084336651219383720169573683320483423465969866247605734013925174604005681225195567465351547719267612829565331),
  (69, 955817617082689938416542126164309352174531124795707715150588826989927368955684557829772604833201580091221349553342933065809677583548757392211258594978119863178269428011354026418319074400582181739397205715936034551344416300109882870950826420315409809504995039642239993540839910496438804840932646892058803270875148428198536764164978606121028898674),
  (70, 6954488468783456042251950261174166021139636669635932574567466477038861221806777091864076447628781870599589711090933261227515672729886449634693795736606555526959597206319418770173682027150500640127588802488233093194675639202616177939757368981875690598511050870875215860673521221811793490573697403221779261243677666121961499399969390841),
  (71, 50600488077429456034754649347140007189205962293739029119779552345343639424450940901585888945143531280568962699700654391151233695333240908640595696043569303852311173378147316145667568498137562178469390788561258562512314346088283486299387432297014676884133832601174965318422482580663462030326414890212790548240858930176491714),
  (72, 368167554022481058248412123006434524214626478579593221844286143089888210712431910783674220019854353509406734717408288474686787874450675825675971345540968567369223881514978149276015838688264668374563098839515897234869183672764098886157475748869765690171207004047205668014024522359486745076470982708852397146484991),
  (73, 2678764673188447371399450368942452102886257957204454758852663109024765713152316613837723072310262331820293709378064685080216096928707066815609844638708499522814735488602405309769212052746289906748386537310382564017965399529000219361786288006201026905601031626351613034380746578842014961924870411906121),
  (74, 19490628022941815488918311995867343008988824595269244428848923172308635816313002367925562926793774189464605589834657243082262731050074519480413416044308568874202218579934037193949805247151826967071818133931402957593617483510718120364615868898775826336950118411383747598501217561118212585797),
  (75, 141816629389319655293274850528588405846215801655390353613152481513095364493209147141573032762264664327216797670387806356501482394068614865247866993780278326672851019760724284786934362272158410682752746900282856901834166082393676825292132765107385380669699589332147062841944882597),
  (76, 1031825256131866747147848939364733576731398171904524725798121460903991881957551360930874224748056939014746650548388153388768057107415691027821280998055941317894149376985574091538412676444488575323825423344363639448911526659828485673575264028537836995050759957396059992),
  (77, 7519310399281053114781981010278865107982204086482909730634363715983195481116016388851824852063986709484233439876675388194596168469448972589764573153558647922603147458557587073384879774307482740911531729206339143449909872286250108180997982149168107653686771),
  (78, 54624374234547254602385678658216484025420385765971362347647820803049953715300980739243783911348984946404429509131669578548537024593202553474361426794018827472422716015974022817213420987882388209210614890198814086643774330996015824746564661740354),
  (79, 395581927764723906133689054307497697683184734606129981979654576534277073466420747274071903922482966419685466280600017268684056963331619858850941058914063313078306110135123097689159751388308734701232424381413053871538052138858883429911),
  (80, 2891791320180134545025646748116748629363725828671694170061230304132849343775275270661024867974601417535811957408951038407738348360269943234196859220998587628480863966151745906004663300145749833798759122111058740265634287718),
  (81, 21040543606346584134722157702252739069916507174875254062744182840873157435200298885792370258033577463948440624992172845170573080978712075752515394965406992303280111955910939381113701840073256706815752933875161645),
  (82, 153090064315286642594676725864418320886263324735393719025715725062584102923592360562178702570307325201284004600419031778772181161804435724910534432082561528070684411900640998622792791535464948038152823),
  (83, 1113877103919773277144592026544719055142781337158139970666803090449720908269910013509399034804031521106410629987437633539752147581786551174737609008028120147919486763611566329312052497379358),
  (84, 8104494949721723482108655885602107112484378148930617707660987507305010267560641809866638241629288313105788227980118052049841496818144547646667552576817997869055508630394757237902),
  (85, 58968162888265635165719958543055100242383635865475920668486211166342532361402793563688254253730205029415551385758789256558267230466678863540956049509958350640629969261),
  (86, 429048386452057247811510970387057557695650585573946335543275314410758394425090905186533949380677654810532734965227242016295722319656517585189354507306763250),
  (87, 3121748550338705657659228266551073298005934354945456936355180223347217800823315320575288191793077415041420295611410617360431940998928122285660879),
  (88, 22710884533626909487405111283220061239376122002221623691952610386756131449058470277329304870438094915099692702421885408245505714474670),
  (89, 165263992198764610114701019141759027434349496726079299229046476608730593943869628787389495942819771597111434211808198132357),
  (90, 1202453802388951635786770544357118890855083923839629663974101426197048226418476098016704844463866600033457667763),
  (91, 8749058845497591858764946493236927316631038637471030277289387991894211651431462158379559893677801178),
  (92, 63657374260915866666242052403468973926178611478274300160978554451057032484290016802923856),
  (93, 463175626884233212200989771325104785919077176504955835376238805192999641655706),
  (94, 3369993333418375344103565433580385805328443079133381461293974642805),
  (95, 24540356270082141014127980331479016067179023833247043135),
  (96, 178405961589534798963945354464728675370699204),
  (97, 1291036821914424184066043440255029),
  (98, 9444732965808604158270),
  (99, 69222468474)], [
  ]⟩

theorem testCLow1_ok : testCPlate.lowOk (598803637 / 5000000) 108926235000000 ⟨929502896458990, 398484441141010, 926312173258990, 2393042400000, 2393042400000, 1631570786459040, -13045085136543339, -13045085136543339, 0⟩ testCLow1 0 = true := by decide +kernel

def testCVec1 : List ℕ := [
  10587438889361380024732328974067554369675043845769540668913368287482855945484770543263800082570006283948752587740439287218387488825975005014547751443541335399612138041539330443272676910050590689798820060171823679147272551479238544222190996023979732665965507016953864360939445830461991164899216561180640761110899288545392521086900324117907076910351743591660922660029580193375536895820811295320596362417655722907115925693054824979921266413111754834265406079972079224560464314421682861543844029686915043700586697191758587325093437475144738217423421748755454523522015638832565898868363645542378698325276204849879613842988351158551859100652664302020904588346119429517358120197421068884896262824677443795349199422755490479260725592226395265566232623453210824584110015908404283858713693678023450979700163224487894985994664864737962299991451580978022345392344544844367806057373139407311169020405171955918660173887786315639548549090147501309785321463741961715331331243709672670135007916725449937065656196963411636724047871782408331657698434190689303536846856624754890245829789435399095905386210622001669460884968143260115122165156097714952685542242020628966231247964924400659810558709411633285681903199507528593730649639392393579592319607720798725690793310174859492587470848]

theorem testCHigh1_ok : testCPlate.highOk (299401819 / 2500000) 54463117500000 ⟨464751448229495, 199242220570505, 463156086629495, 1196521200000, 1196521200000, 815785393229520, -6522542579164293, -6522542579164293, 0⟩ 376 42 0 testCVec1 = true := by
  decide +kernel

theorem testC_brackets : testCPlate.Brackets 0 [((598803637 / 5000000), (299401819 / 2500000))] :=
  .cons (IntPlate.low testCLow1_ok) (IntPlate.high testCHigh1_ok rfl) (.nil _ _)

end Composipy
