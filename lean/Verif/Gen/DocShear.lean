import Verif.Lemmas.DocPlates

/-!
Generated by tools/gen_cert.py; the certificates are checked here.
-/

set_option maxRecDepth 100000

namespace Composipy

def shearZero : Cert := ⟨322, 285, 26, 2 ^ 260, 3983292365940454344142329368701171875000000000000000000000000000000000000000000000000000, 0, [
  (0, 238209313307129287259650435599576796706576084504027461376561271634915136613210874104119387578553968104284779849592627048714983890902185725692849008103212566897955823265459829190480904002010391234866499079685051108146223164622924777081911689641054852137584714562123399849318971896755918667806586048193611946540143844809975508782387438104096562392573932521168338437532945908990156685161676662272424012920135355642288002826238317617002482470857941003507064173521848276762461784151927572321362903553996434123418825990084852821030050527251418745885227779313091427911317268482760199476129865583199399140589637537352492227300626378269152008761418293273038324355120024714108799049377767496451401430989909715582451821508345243867234185772118702153686170979897109649567097113281730109683803776),
  (1, 3549595375465293038780248695605647514858485527396611293801088208480404862958354862095704489626794578198861775541195676456615088744494106258345380546200462682514724482081231909848465085059559214634694145317152904095444428393586349145798559332505685867929230847390344736714943824660121182617643267634415804543199298453479640316700748176933773791679351516383414543234302787616702268796588132713324189378621210987005949062499974930539764202696948364429281118117888251821305984358537607243524505468034760189469354522466392357170703971635336369942595428131052694461819420708469139015243188055531151618519679010098677405967657192669594110933840071805040585192158807418008248088074979273304472744350952949426456838685572071690367518097400127964125377651898503023228877807683802929355),
  (2, 52893092862744525652829538220251314563430630078861285653726580865389181121563238830800421381395974430424895518141920513758288156159134302412649699243910054601948328049201248732931391672187435845057579060154451490870780175828730302241423120088960019766229850759958397399111745128931420782471347862994906373965729749999637012432526769890394416327466838305941440809284192139159176778742494176526728114167171880409210161305963619508441749255313699907501041842572720902371150135118662470152460293582806173581199908777968366067934154588444458499425582521255612946488824808720689422394744368909671325827238652989013752826030236444682374027381703189828366375683205238225311591823604414947770201582874288473207996763433796024794275954841154158215453892357404372388925111473815),
  (3, 788168502788909161878072294894625463536838145239074314441182924291330294632363898020989021381675816035641663046805866267655613365160439944455768156705946543841784120339173804714253420713356671408676789107240013642173710105251227352640377284421921070906964700817441901551362054481080484129061518058104908078398253768677070922144156245744145159832639072923979771275582792448389184158183547504644514831411419516939076204686814837283518154253269993886406713871449984341652588927007734281899827045643822430141360052639690755771708768308177335565829156106382189737980062415248025921978825916993337285661116817888174661593606184840848099016456405578321275519782683605413554722886556507487182539400146551497853278250962559794807439266525258928494449486851178002062454),
  (4, 11744625907971101431221847160080454700244041461334739840644343559314761975889860064104035815323528886372471795183507595474356612043983339435693147133379378078010441665935126017246446322103689184914183454323411191138233394999075343499189276761143223507806132746002702438106567479388125004307352275522126377797100749145106537970068398799659984705338464273869689871006947643285828592750184945831366104355624608947918954561454278786234828394764069862850869765694282253744862369638501994936012304818324688734637297927893395896078509869431595674010337208222659702599827388233045115434061594331198747866541220038678158239495824796259723129278330924951011852024798160305242524302758902731380480680477467518252762159779283733343562818669603099182739800361031265),
  (5, 175008563816116771567193376423127274218857906182627973566120021929066806672362388135552940000944269990510818290464693240439245284259071043665604995688488752812302733450161308307147716315145629419597736810496616231474777981625129930662949036972868792829008888393680787654318920960845425789167765908272957470969866948501863151342695933575331936856187347678388504251941258360234328996392860201468558674389490618525727906248782259253056745576332349220921444829959851063369553688516615293533004788973044078724426696864639946514403917033110409460561924604326281144219508404315671952867066148167067615028892965035263633984718573967439228420233154146974511628934983413807873185451603333526075264308084682076160926843738691807436889690908469422764872825),
  (6, 2607830819727730327355762964831699046773581298926889502497315733567875723128950419061674773707155436135989700115691024667609412733600602204585149819977413904850225649031420175837691371368551692658629071868905666939538389170544295469864443495465350044205917245055448824976666584027490404086824743572964630588440104551641093959550498926271974099519660289263553980766851579550420179909361305854746083533607283510651110206001141689269607001495918117397700103379670240876906379050760765519624740013244098986662661604221506588562559092131106916472172140456161325113719283883215281181725039642139106808023951731251341128377787412936334560963893382002234843326609459083406520031476650190440974976042445604926873906642635573948022261434723733014),
  (7, 38859707411046778073247715306754396062695701404316566921730573975561197446718073175276439990209869088768805565173790226394078325235852631994860616624018757117543006673923435447181632688172931859770850418044711156778609591283564202038413934342046827736585099176398647203693786025456941188675533884360859253830315240497009366147972627375602336220736209888213187169534736566996875105937738803844840579235662274221556614332931968490367200661151258678206738828379830554799690936982547580570553200788211051885378029627913150141485585835018733367708403399551179894720002730797747599506028994219474707419716912326824739514191030129315787681958087825830328414756218401122046449656511064835626712366799411422273494326481945865689999930499),
  (8, 579054764077764422792907287281072081069584211771437032844581812255996427636117833484358191344289021026623331981506798064620469886598775267524430403471272544824227790145925215589726458313657818135184800893734561752954268325620356232500283931822282489189283537512997496183123976371540742943816391890657831040476489670530101152479240706199442389916423110488253640674572237834287808923985642252040514040524895206074828324579740991770210017778864579234313645404080445988545684595747258049637486148827254731039154007831744606781101529143448993665696481807726914418982988260520400557161878318221737246007083776806768395896843260326365438816907811189042786465605445871002938882654249855660313877495339463319852378430278615216746),
  (9, 8628588379588193040980507243887664095604184445313171041676131073474830800833073757355782260660663560429563104830783576736159173944574225955075478605497964394453582020788270467366672431136039169657003892864801909818563883388345781452958046374056972402174525521889291646825134402089428051468974231044319734580464507200272398478973518404356276838726149655703509460010710922394511236607814464748509628920335251626694033769844094804029045945674967638912544510082201832440382201357910120185071200525126927969161483933665861273900537883989793459739717855123667986676734801473175464151279283285953457555798223846249842601274494282191166314029695916865280602617469334220897835314303818967727146324079421127711987281236275),
  (10, 128575986319604412331886697469467879766288167913454339529218242667240363371865060290035341093848102695190356743794434916021811573871586113498739579401879972136819094729248739292721039520741092706576047731411485520281849554007437548830480074495926088127114259032745534879343724281928361229136202201907630780048139500622040010675393319194857431035133446092955909073512418901838529655453778413180835729502983040878331143810819301917552842569782507816216420698339915699743971937433172829432696991241867597314178325211742482894455372718032320573784242910732829038972427319446211940389001877459377594472813078500095596698530576931886838448112924549641437325156541845262601837260296792321218682911540966139544083),
  (11, 1915931497806376402555207870445666905735256789825176291603121797252302816090957228690912441817642788517331432458675427973595434037917645476739698341516851963651464800972472716759458773147182057895899530223183118109134578019491397572017909206389279486642990395914696676721330348878031391339543494610602122247936420151919722716143627750796935424732170195772586898110991998044230486003669324404065280248459209663911160509707303502038708350014743939424182642878072784877741340174731788054594426699817810038991085437327143016961064482175073540570509318922200585536682867253576552081667890208756432741385565596198892525902607296214312494121735183215459241836897802303994519140614206181303960911806418557),
  (12, 28549604085182791986394045806611581232179057446497325474070337373797637463971335123343951133156460352500251419226459085547856003611052713941629206262780010158590447917170416068426650362419814734099798354851947994666316777758172118246822196340401164988323903022925506185313021374911537637405745604792268905757910313485856692733520682913019290934982451733538313181862115831090571910720776948937079091340004789301592279647204898790377538080509322693735917862212653810475427534701273535282964398956072032727522934110341447700089210044187591864738535232250297090909999671581674582023281363320299398065048104953025371219125579164308613556818590523223910758214466744823324179001693009010968491746),
  (13, 425422252493840336596877065399461704972074291802902899296139737573230824827720748235940205054826443679634502816594527446446657234595011382425266597610414179542518376069820166653791820442971806736287450117646872917805862095328749988180729692286270335142670616849146875520244559271805549225296759676818086292712544105736265968285809202686239643916226204239402907816753295256747585649269905163218088738137181123915728545140889978067822922047424822797334585474571742627131559225422995944042878597952933942342847983645401092172909232587492307404772883245844015507436855411013307334894959273244748957261517699373918307087970910394928351481637426848272691225747321715291756299708176706974),
  (14, 6339285559860472926450924059740628376187001046581609536649878882962924611981522265612188056928313429350175005444802752829293269434496929979700842464125367694236611963358821968045708841725763778929225357139809026089397998084556311192821408693287824617962101352947158746723004568693124491353284711790354345630296231891755252603975075523350233493987116280785491798118249922829670338470487134910477916557800970707267470999787725046791668160695009271394056924634374304542172990067194425739652302084099425483094715084926062108447543471442946945319253423031352554139957482704127364072563009193272807694675473735950764899258227314978342081570360097289834844632744968097779257809871),
  (15, 94462715981311692691608131822058981302186862328374527940897328897758194982730183983030737294678590139004215679240267765958506903566374331410241759778937216017195760657769768954004479076352175756234308438596263916632503242560570108783564101059553393989236673011588435571238466630773611237902711507534300470803621886547733137070761256267878912299679698977566163479281620182175999366365037956283735019650817835505076033535798294775392816814872756188561052153445848062504124699657800964039745541459103760984986399948343619565455806238056742956445981539788758181685351358623811839885997222889644602410247572811660895058919265666182429040528328238963147797087696854071056),
  (16, 1407604157646174619966866550178214629027051662331439971043129695918533131222876667723517675618508311197224493015412505953885717743134116104397799965425390243786510238912251129061050401275637384596978253701273559281714308896073253583663167075210115223962615028196400934029198685746991801826696269326423115593248931863125162379007954243836982959238294077355964706586757133938160478837694952870564546661626317766805334886315043904059080527160281784976859071465128819899603705600051901726728714535355634673792570771120026373760395699283609964541223143983036712817996737129864688509581129866493125552836350125561159455659745728275428095617264467636440777788994704),
  (17, 20974936450215795933706559988531688288257295822075604960965062617041664290769050534419978791751091349083550170293636708764519061790915073519912361583492014464534971697811054126337921638423761495902810300905608524109636379719872081036316857862623262762466296973770870775419454064175364402334336479401932889122500000344591772243499074258630065396271831408895867944792503031533828122078258216469655717797766897881559291997257696880674828167037563210429594314160118135154603700504785521924361300678039098460806862850525481038311514506168500573944653161366999169574821710808746623253358265418221098779094084952506871227586732461277758421786626337873182766),
  (18, 312550909075376330818333625622565869812031028003627135768012145415569309752718367195427101727591326074057074938619683813520059910281227134464865350477278448112830097940728874897031808472033761380654726936006673039639538224337579027359438804725159149802719011511964660516671151879062718187784202089934541122950613503822561685110293477927919821730002740276220972168019904312781758037887872032608333909003265581741921089593666848766216405382123035544818399409260423597192443998767844971963433809886600173374896324302811250486369101375020447110833775700478336970553037932195069983496740263039258909300088570746674258546684240484224663199478721679),
  (19, 4657371477415805024181807422974197116673455059582399364829244396322508301626419532230900253766645879656926914134914931856394706819671796775830765820701099159014673500369919462457773215652015229771356685996155039066665444140696213057032805751638995853106960825800369091580378292188982936557891996054866032644370399472657542904876459446128543546851734176489896394121398922005021487296634059887444994113413998217287388989585004120540193460118849636993765595250580955057780233251605949165076130095759805676412653213439356350652561623814437995368027943665488872553142918401635484143879614826935461599848366476487560485661468101929319456285),
  (20, 69400243124601319792595616325351552913687453561758985591370528881587211811936192694766823258498994702949030907972379503494422239358302902815204349468664812430958054965286246872809130186617601361443947046937868581215522350977304772392404165143355665402218115714197890335029040160611017593113958776814729461735115317803843250657112275639585399866242514312904321891813217632077001751629693678131785910405802864828617612208503754020645350956884629680962512836345988313947139044887659510837142320615456942526317823297024910220046176839015404637478413344699079329215762278014217900348252780220915313852984965893241404555146718822649),
  (21, 1034144209691901799926096444209688200260511838819965505471386445784378227769377718787891019262358467324808700501507215253925654878591044289100234947631728834375114067871663672816889437833690663597642586334613987523548638090153109615927996712078983566198022897753088032231167557248637342350392919433336530393624934786723924312103428532314666411787516651842079587252044105496981170943004104769594352771939312145778333214542117448198263933773276511489735923429164435397738983280243781654798745355545707732747564695504167755280287461948374221925749714015231086989559181142623695179871567147359659768543949335777069899971982),
  (22, 15409949566303220390172249737526300553389070016443215392103589263325605210205580574093625236486769725752006478630113828985775334814057414071265383774514925992118031797880883109821221796180168741906323825338691287093589277418749177693247746111139410230487926270858765128719323236474951242661370802331281052323604913796788532393002996621671935523434139447363714198512470098283214593522231380712816109254641667818693141030484974907049624959678875350732484917397421591932565020177054256845726674592576494532327006908316332021412586784002189107154823752088468163624641801408928806857189845973533006273584673461103660),
  (23, 229626142476547068211022760533188291689590662962842216970079977263891774568044849844181913681131150212168790081592110231306781393499037833083650228001399725558132407037628935423809614720645081131254491587559748993718464336078601743180271180140069279528974388105552868973006654329224694607570796469940119792349125785987588763301870474467617818237994049713253304658449232741293362300085678082232959479604291068044761612178565697425381382781890630189693628554012218035120268980901509405725725615231836050228753255413740609806555601524302928948923247915147940881484368515477917065006917193715387166474135968),
  (24, 3421696163364456120297651894885127122545103176874551429898738522289570787072850016417829896228479597153794617676617357601326426766798463956768069088479872428747004375422432056424164991388396637607432776504155233408785825015285637128059136571587164394989228071355117395117978071314000363953271382007377152048648801317977407468134743422685647080502821089117101227515207443602442378288542437799044923388743485365799550178628944645041890895689230689668974446497013460221494454049977147646857126615291370432678162462880290202325175803053764076893995701367462494569019233383740241146176030425312447837),
  (25, 50987246086663843993807612283306227960364567888893953411262311373495620296490937716034500244684213357475319768139978611489034097892023085903645591266153341960117286077476025468471124639934251272789132244946885606777456775535429077268527993136453097984034241309093198107651687029996311757107316390880299096393107015292492724078344504187715728305228522744550814949362441077139161271304636857777329747304177211214371530573011720288761307122003845800553687505807900222133418312036618028148297470652478387709158708499567431233314576253244874441836126206597479247591529927085317340123655743860),
  (26, 759769172767756044772380773474368869667717335952728292513822188578480784542723562062300745318594773970176574113070646099582822589457379071468794215711255996825058550797045610375272104739163089883165541960997665029428255193463401157685041325337485939026389141516483138012218704394753017507291957500922655404409820287166089047324248052769130590484272848034290046537529097328645374469984913549521280641516772807150517822707858500697723849870582024010089693060778139442787701264999796694040737345479452468259395788405113924333558009011473823611745112432250666044770443876369659932522),
  (27, 11321442913528621863907289109742177570875247358571414537933799454249155291061454446052025933840792983325966806904534192377072909317275569907855901356209158850089588028148496305574061047124312667297803490772808567128006446264138835038021822651289193913733989842525742609744610961730491839600475295205187912618524079313303825659709291465284853362488162012508484483191739134713742323362169236808218474546060804996823724525988740739964578780551735991844146404531076189359367194382082759030615122980278452934735712482529584296441791651398374049038770496059393195044500012798996),
  (28, 168702645801434246657897369708749317688871135690382339625564209435122538969836450309336571899664297451465827329524370914356006820757323055086372812929885966332101643504925017141909316884343514849212817710232862340331173632504624650448885897566217280968961512272156250607556505986652679927915299081199447030503031924521198352202420872289463163736997141040571118761848425102148413664255613834378010433398212532138903665069946684924904037889837044346616073448109649924349301173366663243785876116209277653788500611632223386755093180696635900787491579545517781131408872),
  (29, 2513865318915758232144972230624397362602817053949569756173554203437604590800947700580009399349455497435716201804941459214031797956784413085674834444074123596133316211475804703562100483243815822142553593370808099811243618018994102633727876988496452509048732543112892250775239877762565158156560499679586003481652819223871483468183078357229041939649438644079012075449809735940092601679802974003079559620096825578636926430554231764684205035453950743388729471780053523194134311835005080164226018964633282525607018088585350243807899825333753377990857561733759476),
  (30, 37459512336786959054246131042009552755993858783685710373126778057777950030579383679926535477481119296486917164995394039363142817568546728576344764889391118230422082714375923627050228167233106823899650474947811660338098079249174932185584007228631973397649726700667158946731948909063913052454911477049463728535953304163752489826094715486592666057320316464369130147870682557791059133522171843018654440816697467976134353572499512681479359349410713365001895747733846335244575395649642274269669301932644183945571834115936137058365586786715066017468334819),
  (31, 558190231573387370321842000514411222278980296607102608280282885697155446269801015852787129245417107589347916319897682061242205166348021158223521186253296110487313311016200834915790381539361280558998144789752537911207945335721301508226422693271822709750188832420375065356832666229695208292796006394095958542579949723271646693204827970547903607394131390733742080767884905274474204454023394017817036369167155030501042924702107200393608251134626185922450503383609363161216567859589940179405287099217978372296436203256883910165573780163069917181),
  (32, 8317682617506196652678281076467204425915782103048303846721096123712591026273384926509665388545648866733132545946503908354672866558254080388300436530311347700466413960102212949332451545288581856474252712573893933165305573894137875916744172431676971127649198089082222280602581442377874362707508211503402756234833203093897953511175133556433917776180127722228152270415019161905560732367599282063351132111842393158886792499860967311614160181782209061645217662897582555084497302485316955512469673146147901102649880449618829852318094355827),
  (33, 123943129442724535654161588496971196322378249511842486958520056660660967622300757862771531768823398153977581053175090377847446002934188848559564896379580314464366644026372029622382693667539683825884054788558234059399894339154603040326939410249054824007169269059646864393207699961412212053142187872354486459571934383163734585961563757041350001636664603242689593474015386394232050233561863464650226407956731798850259125637558925829265565849958595822790088941129511322440057948226648847468585221250767781102447007160106721584555),
  (34, 1846896550695963735195422001137900297677192829725779398657680402109935397242020932775311645400872799068355277973042285112253516956183148154013825899058287061219910443222105944490174854808147010592878834066825214059223763323337693200753491492188372336692408019715507419638444663752533922558003367780360307400694945916757138287677408422688478473073653050557394625937977354119695037196126315383443161958228375397589534816687621764030858577595182082964482591212376641244804327054294248544116917632789764083244350959159231),
  (35, 27520903210281785356930226104526226187902582134690573791528946192710629064470841478933567485226285443728495806053910927657090380134927453905550031349931464511452770877213864691409093958260819631697467425722082499694116487830919949984857764186627764548745979592480372001805905246458625404855679977349199319010364757132290809110931531804032416701591886874005464769330563779721556876306447669664040411739024117796197640544244179576577430166895637700689774705204659330283587377375566559380938447855910376790611107),
  (36, 410093414936688324167284758456442150293329091887035575382842811833480433590275667293869964558277807291276690454094274754182851018532029597543925514071158535949182076412645946315066426529255099455529837725615435319630205061841032838486412066439979267452647263015094027402384185695455560892519376406787277617700435523019200172898919669714750114626641602559089525586459039159588294193389539305418063054000870440065757723805922996401665840837517362710861872881527008295384140772081372011796975891295748034),
  (37, 6110868080507044854272674895173939321835772572264605393750113425157672667358453084437101551268664111067007339806769412073237464108050310575126491696702816127973527854869454299295773876911324170031106647944899704837824166476324623638854991701961046823404109375492496266785487913802297906389336581444032546865458179293268927141568291155814702902791921480502499492775836238557875119666355622193590773632272102453088989641215150529060089219281917974314699128352003051299527605345868981603838392929),
  (38, 91059030301973892066965623128025819686588236276277980115266344326103816440082387394265853632519604430601110157471439422268233658493314841019011910210591794967256901485918700182524438462109340160086282779709854277601738656565791380471972696173593583497180008284225136559882254019087599570116815041570118994218256690650893858166389526803868537569625952142272399874082070001518453529151570151563917970895835084105746450493973040735478598250202981451924449751797140014446682241064304534510),
  (39, 1356885288685171187921846257567790443995419685189097823430096273513195163608825018916515315063589877346174570284358254406872893251379055396005688759842392727244901743771195955089562793914379876542064489410502902491591578341319706582357412972736751711583013508689441804992984856213804519755249816151170997451175784988856369628706008972102774599948352594769350883362316298847426274159290197271137653566673400767942286133434300534255243514698375272378634555711337589257961126358137),
  (40, 20219166408258247195509765409943319022587235051231053820700887941020655089748278542109062002056686242612817440693948483569516140988157024920071493980920228235401950290188808981311730639522995795465822196606209157585717756553345283382865886920322745070768567640543070655445728460632999094631878197628687426554782607835389898104508616060115357429275311690701935695178716352577919295942360844295141046463297881424297060573266296882034701356579794256813109685504879907600357),
  (41, 301289057854685890607681355028499946334767863917813507030917524412582145478550770016149610311637613812279961119502015167020501807155564798713795797573523080974558791048139872984781489844533567783321417174190507877531604882016026475417402564690763323389060762991527551757424860615690562769437671927739521985417669318521958364998763809975787950618978336559515572117469832742095969317940346251385638941497616367811093310905815611217128157317551527880047335665935916),
  (42, 4489556817035166779274960682220756207924602388110958144529424971529575369932513982298219357604348865334391014568537699684806195008092594199959046605622206163853219403286873058133811408150173417707666551947681951978429434495201439781692917056268581645062723668353480218860794003633259298424370107372905417085700189061926469196838884526621164333052939200704591847368041795487563584925749703628020138495417458159841501121627577779765685765499725525575324059),
  (43, 66899609819578629423304806384753528355428612055047722824356331997060408740230113004121472799842787762498721697457696492743584439373597676397406181510415119509254804985305989417744612472402434004906461751080063135325069104963103758009798264079130555424339567294955333620771424160394205098821097013403610900540261886011116303075514639569586836824600358523194852065301022708722101880009709515927842976014849094584278810021725363606724254513723246811),
  (44, 996881869727054676760804748307966118386814177856560391550605475858754049841018214883230221269172247685472990534569270800813676039781502371673307047715895094093173878842678359573512081580270540002086459821292107394287006679358822358425585014246522978621958537561638430490909569086997921261481331005659250629358518894082219060975687702034019755268542584729264047121393035641519600797111320493415894229514136025666900334312687532548140017440),
  (45, 14854697432027081798923086349784823035997363595017200582483492431920082119718465430784675795870605821691050984480638337913816851166859747302281374340082472706748892282085709262447958623671329187181991485232399068273008263878892579151051448686148782076766250673752622412450562809749279535450800011474369194183248884896473004010119881135528547851263228412646780838989509168352856864575058075335455332423732370413130189961503063810375),
  (46, 221352240920470383747266029563320026338061147853988417722038811920882495041466734272013243971327033962176133367852895639905139811137166786236878708076078188376623248664394776753780955679457225045406309692783408740468114696544704949153173110695703598095010769383939074053618106558331917353045321740734385922357039254116108031437201868546176328300223436013727301464380317068178483186185232813759308768953845567251203639031608),
  (47, 3298405422575330492068320953299403583080487666338509585291725574744976983092229578972060143520340954924854607498547075813227582584694039027401475814435721985659162400841543081194554097359060611775589818419441654546013587181580918385876219227853280950032003846668417228096586006635743266300893846187435830064350883276698018588553561819128488220815627161220531367324023325472909556646776972358098090027794528293132652),
  (48, 49150070884456194819037928481391125665314311777629101057227336984052911148849570437849464296798135878061516708643543893934562540306152350840878513422406007163349784496964630145711037406552324615893526099215009742702590586267223090087002469739786525296425303894706650896100524612805366362965455016652862574214856974785453337085729122433754648687614012861051970647873453036857205800401388025845390515246474591),
  (49, 732393128938320201919047958871589983482872125173048690814187183738543259335302866194808788598516289981360238404955908432907917443389126476335810010928648722837288415755025260423837514280039742575546997304642751174112852062842082666303121897333591659535976708519855861675003518998753398319623586179455016554516870022609187069154331828105862942465186868286796840600182893816795343888795536119214361379),
  (50, 10913508071576359896645664555901139728469731288746724885913538690485704829338220010728726463352493335987955101912442026622971114883730520167021240464546071672833776934334809953415413679723961475021122928884692911771381755257518946656792720530212339519565378604733286516669282011321627462651887271715901091636667992858343046958074620550329668845716674655460628780529914404497228916317212144567),
  (51, 162623942964916823754395016370730694062556792627971245138548891104574024275766985403073856138017413781695963254305811520799252830276317120748605991688245742366512895365131360983647280761977434662898757369884994108371721198545221300554782233569355558159429488831830232453070004503079783755642541374387886664933750627416434521222107947402966076390108246925811641762397085735194061586614),
  (52, 2423285588099313136255666857521693320014428982555437760629535285041878495357153952548367726034395765380997209032215493278940028856697947065874078895623026885123175674787115455538569428844832343984840723578404840541040780049907753776431514727099480632216510239393216130937070873781289460477105444910613660428901264906039824891147250497315202143290940823042872798339932525342114),
  (53, 36109769166995780710215372704292734265542462208203107684230165423789902505412535512209548767357322835178868841345326318289439249715108535088401603170332890070025941841397188928541812820883164843701430375790806441956598909920179643039184606075864801085553387781566329922772170548718414014658425987779567776632286567192896824861482799328440973131588715663609465475225013),
  (54, 538077491030034135434260557655881855868435910713745197984608389005352584910994358033631595215451891429200936191114211493240056772873977600547513228946619150177209952182563965126423369650078066579653046599762140454067075096251531166843687939891332182328013320307224316561941644254070857346214709363879900031685989383574505052999191410498530863356625897709248803),
  (55, 8017979428619655004654236997006563272562226086284039934072588859546324660586323863058936464989988839055847364375318079172392877174552439624904863220190930629490156161044410750058288497668468784590618922760723983693594683424331231780215753857699264059070091805676476907332484416349535520590065600248795124049256921710554283115982430600108147101239915233),
  (56, 119477203914816007087442830254785613828424091260929021376623364516186445866839149543983344187816550523131093999565587764818731520685758598098337524255907759039775342045526110992721015844724182076910093722762605565962655256539015429510322892847059927494780854369423224952411826007567617977471697770951907008067929813307924912574108196492573662146),
  (57, 1780349074524879561275896903471694352236080980549849141024674226118065808432924942979105156258614359723994866187448282218131280205728571776028859331571993230334653695719125076598271447052324390418055090597830688975420599402585302158517344022320362953383796190656186598427568400842053677318835794818112896460468658771097042248687711113318),
  (58, 26529268540913407767553177033436635819530433097435367341722448035521407554385233874299119314308710636036506604244560316802670682124095408057411493412464034114508663734256293979995101361532798311819460016627489705370714514014544324428613914080040150813745788005363689843919279325195326182509543792790041826800774217512812240104943),
  (59, 395419015943624071622064942206322534039277242279013886550223891437455182995049265556971508463090163386562493351718425482752271901829386242914359843448208012788592670071565920969647147406831424377026304548712229155079121883795570099093793590165772479181829381459163060598679067630133566757196798434436404335127829063836457),
  (60, 5890680952094823175140330928574745266218926486645609215224910844288975524799426279930776837246344118705503372887068195896475923352321679067987088900991763434259129806174088352265924687150637922359020283971740698605036702404510308991253588629054408656124075610831949325437236663280790744768520783849478766919560317),
  (61, 87777986408692943679397269019099539522047459035767229636738391359155543984429224180992942299622724081068640318140990760210307917336400297909994346281340966730019045264892286432680320917042876613226679047979626070977650098063264260366938098549268985912016791202425267148347203604047726665700143484519562600),
  (62, 1307993924747302289000104191200857176860849916514946362104373928102138403514842994288105611990577904714334259418887044282034947552567522925388926674934588672563850157187070266187055748091076191588137480763178620766359298906604900919166394134241377099507384689704847938696560873505229126726375519096),
  (63, 19490628313232983769985034654202885058475964909412276262115730291256778140662179953108229954634729964807060805914474626102390793715884849254907915473603695566811848016528146590883906806133248130538274938205530048773993877448162133914794430699635640968318395563401492912827720228664691376333),
  (64, 290432994264855868005191904673458547267710601184287439741818336914610132831620652873452363413608372589319828631479546833665590687027421428882209988855487448928584364723192207134791146145696400235707271639056877645759320166822448466241119096615067118016434727492902188527429825672861),
  (65, 4327788863552445323003556094117500595971391270604819927879200113982485444923242767496568981309205818753045941958107440400356277773877617953833240254034359368576703600033023766606450969419730489633986639749839603481188292666955955193551955381380809258138279135518983499012844),
  (66, 64489077546809496750084228675061659715886918725625424317184980785493904886401791446280911024140390539231494006689313614274363776462909573292638637062708444676595744679578421026302316367812553402301527774443698827559136189185798898419784454913584661216581097386872272),
  (67, 960962168406467884896736061197345719545450716931411999101521537335914934366276739557426174405479883349520889534147510062415089518125472118918314297110693725084034101525674036585225556569525000066019930048825223448271530919245645049809022131194614935846029927),
  (68, 14319465401954580467551003275445205328103924864462671856845179235685367260638332486671239477506522631185947472051357817845371863304143787614639580429736154892690960245533705451467997775359756679292318580213907043529398917823799243555122497720888209475),
  (69, 213376465031711015808734866868927275684841927173913455151151760902950371283452763846432477214202201291159798680149162670105270256609046614615334100805331609406704526976588922078684036054565147606141784631585317005798845142688411231851542342882),
  (70, 3179557100410923597346765799345489368257024496570382066985246239700026022944944576237108312398802535230448662010584716206929120607409448005084727353522550631484183636711001457664192673347473188974455819372504534298236889602363803898482),
  (71, 47379067462140717744643649311981309644965394346602862965083007508307109433563434865176943676597128639359816746680012434250922402336880562023550791428221041832215470471596198337758480283021475152104854220748296518228905740060792),
  (72, 706003500197311598257294044743947883610882257778436664286337519107906531609782667519158905586387822606510921144433140788650327015997812094062165396199863871989158842495329221285621686322402233791921072076953869125162989),
  (73, 10520262867533590711455524938155369448650515888124495996406601041206848860675212274619703589598813435487757101299058644953282160061514714007892774579440323615471634442370586748652797096167896858179180785090100123),
  (74, 156764268277005563656021103791785172931628612527471646840780816772109394027004129297323463510214701870570106856682291535250304743855091161076067688208721603013084203056800693400127343926715060371813865640),
  (75, 2335972972662535703228690963319461067269977553291384414835502772195659505909919184260614416186968911927209919256204705159986045671328974188307915697754204474290041328558049671643801413162874654383),
  (76, 34808660016256753368271628738447334386233976363854458502134650561850410241162854172220451813828461563456084565989293883074061335072993873268340136833481875827773291523084768757974315469049),
  (77, 518993438360759818354842808299993280549891554546576435795890815216630002205945670117854709135163637831938163521207603914696325160875652676653653175891924732142021182837519309473899),
  (78, 7729075161006781178842327896615175906462472134802599751158309060063506534774188652773526750503892084977868555395577685145280814816311400318873487485405254721161873183584482),
  (79, 114976949713854663255410670358300790131522578250978089654396546541538748466867364480028490095064622572426397595752812676395432733122848487538389046352493825105161738),
  (80, 1716199440606016934006921678026223536561142785925519104030966366213441388467039495432616676677429569026836174998059329583337669288447771323338825168010923992),
  (81, 25573364505261446478255875232246305689286262005631106772061337544361902476217123984228605448436896977841814165209785756958998156044731822014773867649),
  (82, 381072838118777830725783209040990315268149185148333996283783844007454440054755211796030053625006116804821250095956482733260938751063330863453),
  (83, 5678427618174599141889423126461967083559910921024531788475438491338116496704026497710494394029268938825253303364325635688509651445056),
  (84, 84615172831201227446580241627667387501114486159457998553292839805417331008932180612217714942025640281098262702338880018064575),
  (85, 1260864217072990593952412639572429946071564129723512391732012548821660877697006291406037756357017291917271419697949561),
  (86, 18788363899542370089665372723227767465553769829728770566695835359750607912148584191559740783694747921973128313),
  (87, 279968096944058483358884437012340195533761296585759088146967357409552195727495552482656151804194171914),
  (88, 4171834573339722483747209098111570192352964842934909072667690664926937071762628390770419258193),
  (89, 62165405477560996608948407193016560578136637046073676905046153772682907200065797949341),
  (90, 926336727702050024859103315300555214361033299453912006278385469105141294116361),
  (91, 13803545966791173913939320369930512119592298271180063253929855869707726),
  (92, 205688072730171021361969996905645553853496956432631521901970744),
  (93, 3065019078622518517676771370685221314700110445444197862),
  (94, 45671926847387085294620732473894372434323426003),
  (95, 680747995553850872303270929183128330357),
  (96, 10141204952592544951680161146768),
  (97, 150793794387865541633150),
  (98, 2251799847307198),
  (99, 33593957)], [
  ]⟩

theorem shearZero_ok : shearPlate.lowOk 0 10892623500000 ⟨92950289645899, 39848444114101, 92631217325899, 239304240000, 239304240000, 163157078645904, 0, 0, 0⟩ shearZero 0 = true := by decide +kernel

def shearLow1 : Cert := ⟨334, 271, 48, 2 ^ 224, 189938181206724850852123707232531160116195678710937500000000000000000000000000000000, 0, [
  (0, 43949019602394318601174758373552639569604200148163450522524175268838671695472324952239109048345601129035029101012472786632095212344675022739606389650000333106805825015088571913503589131105431696228252452944532715374327374769739953394872104747696614431359575070916114845085895527763633892073015980507380621472397518568354150675479997147824308943880258784430612250877395407736089288088159890675773173781500887955670299049170293778387575046491472379196929824661519310634523580445117670944787944427368421885342079614219245532782604764869501805035120738877060222395817796926886443473057615365995492412933082916598626966126184049246980082146835808071929990838652256858160102921257160393153547435321574384546337967957892129648408034814026999050522592949903715837684727025605011443816541072857073456987763881101796754850014968145450477330647543863394888770490884700037911121077804866043795082782952574546900222643463340267060657029962350484257505344091421987630253101385602243799745808031567785342950582586365079649637204357583387486445324915263401446390673065435974007590120902770235375341361809124362859052595408871762090693303075580292894495561541117212606998411845735142004307612393070726677995296397447601734838065713586613601646411756055443977272609760247498670606908719591390378045745752875202403069942535152373735967090830288767565016661110114921486731997339103607035805698223886129362909230872061023126243675826857986743750166337558261329216282),
  (1, 156138283111297648279868462756612642186852469266126243932021734184582838961831629917182017125105634850381722959200462194332087095264238821597780278871426891053906960192025266257699872806716114212933108450956370615523125077465280531167735861500377632294201557779857533763439986983327521457713572703011737351177137322254232823139403752846818594491225904563800285454808386758913092109282274189310773144901748167810034925115197857004956372316298542483526041112403672566111806860238849278292107472152027092297082616362826163697202036803693309981025268267547759472775999956180067028814511386393332843215848565835552459781347721620814823787337515909967784433968959436562898101361643769256039417695524116370174063092541033376109311471729863992587619467222394987394141903627105035368375286967282539254809719441758619335480826493329155643616870264137469123454154606455718523963471969254713353505890201486166614656911507025237569646532700732770225313057413376783549602575477058085487867507166780954711888062709949459522054086704293892662454159408514453817038913031889563559394438089221190463014699375572387734542933918430716764907971795198599706358988849662082173232262758020570560836604090498010713707004283846017501758977147694887099914774610442523417688318786296416320345274177561514555528480080547227714973462709366778351520082848256628632711213717607033512111072513767645626147993458091490285848924831107859681570173474968350834639254288),
  (2, 554714614193932392111706742655786123161662961202460465173735337119548343884757563831946985733287771048984364196600659348959848299160451367121212764997391144042307190147856723632812762072021379157622463832511423531184125143998928319773738811805606134065987894316611792658875355440271169476721882684741648543454805499146093066327281039373597318200473809795171168896418076453305062433977476350260265096287597571525065110319011754586982378314625003964714413173466569752576329435949451174863993231241562015643902641538524860099819721894552451079452979838705173679528570418213700423899977161544444624098021868389993684123409855220695958832299922072080933453609075330927062812810546323504608131200385359598833414525177806013222832858850580324583814712093481302425395198082132123461375126422305965174110012021055451240701566793693031509929636970195179982011816766233809517524128836204811173857761745062261677025035894710135999502825210322678550089033799319091898726033037192549590047451312108633639545240676285822416705247649348562754269616073106002079156031050470453929584126093869906351233655854864394594750132589086883758511988695017365764206720832014119027842118567245742293355138344179926755058264523880734549512252305595742086740712570268165944265936651398287683678053532599712568705772753468509045887074645732391634030048499946460609022503859684174194783435098062853877261069217324393547214649306170981661496607987880),
  (3, 1970742197677326118251907667853779042707397768205838649087039503340961999401619535745833593883303688617247801305867438333620527754279021931158456357726262609881143781890446304433385059240966722731593790145550654568694871016983428261588566996229609650249826892990554201854803847880756853345196627048855648011222305268383412149288180044143804956748318381425985879560933527632844652664720812929958047363810172113307804090421668357844646302775348814736540295106218571250793763155504660655253677359303175420435759127494623257703024854573046024624193889844666122995166441065655151106383787725720127867028075273445586234272077260316876699279120267050590106285344927993204545703102845960702211880290183499649122518793752355794960468169742925413543640587809169426326843670274982839392575067529044350941482875402696532918528399734216082075145615328196358959877622484431767323846795729023970084717930122491417432930644055829177734575620611218763937881431346169964999012573923883173201234322625850616751533212370858967307311860828138466535271009753385522491727769525989075632697071831655587072227487463676834082358829002274080983605728516683983924172391409355500410380018295610362806375017658115912031266496062281891995020211101301466868477743843501049492649058575532607187413611349248963597685919085016655420172161298831591313716309488636710757985380847421049317379690929998913362412891717777237778844679401881019),
  (4, 7001482763077597291541236998049338931719623844450377167046324811895495086139432088664000253726640070145662524601943624466644165786558396047064634465066968295876193131343421443209909182460274915383968839483766027487003466294565002178233353178276877494034475876782700971484998745640229079417326215124914938354629275595127822915089339674010932969666208625717679153271907664307763684038550923567207630653577766513634387345709585154355090362711240511602782615008133046966043491307746153947468589817415730964127928102039615714968423015467088620142255769865848417748446909547706522070540514326780111769565718565806329231805013294536183463204964521688787138079650162556804622593286232617168038957409889276736416685742456265710701999330975288463973671283501578792847097326568156601185588767780545363953176541603749019557362463306678593446322626210321570020017845375805020450809694196893374993204968862666917600663644739357290751814896568400796147826020225403080827456610384448639182926183723494723761186686655277068741804117281639361492582991789090770183990860688552999867265206059085287621920977372840548259607126880687370138318511417193348023030322155865155489525936933466222581937799530215085094835467718650414382010734731511516856589737338470158696023533803587821204639236075400470440627601575764319414619417844782537065208361982574644607060890599945967708950505619362366153160244856082393616),
  (5, 24874263584271706731745286582399994769757341275530312312889424262236186841830346198861435360522307541038111809690546836530146513363200696911777621043409312647569440213656198477600544487345768073481511491293950752943698980937501382649064940644751962018810601324441836977587878527771995178658408374605368388027064254668828705927869789867695732857790633210433665401495444997364940619059406840446540452140232583082146743953833781242064625739058813677227926373121153769453583106879599121254886248583971063525154676561753375505391343180388789662566238440411753237485637091977631463885744673542817337511101948755532224424076351335117548526927196383300565465218490724043947972863883793398429272362939063884597660652326767183633300814914602797728000180951474287357595107034200611199940982373076213963867901851298495797048125023083741909746167921755402416066979321391362214659352840396939459323621806241780291974279891818219758287828206964825045871719410320609394314284701503051074300127337816790382987112206230964562479702351227727214373028754624811534714101095919301689279091141500882697642613258113844784515951835473994213138941280506937274985850581811732623708595402224299220230917981734507412762363025968108899815040264822862330435813771929845309795668054602638122957281237635837795238467180409743983978253151550167853599881628111446415272173409568500066830213603712250717280914),
  (6, 88371136485931269290522346375382748710184945919118292724510241463904189777985984473436912482648280121957326861414638715537771365984556471004572206039317850381456197132678903747662049594231945354328812993905553529372195175062292742925737842955243060383489966101115829309221817765418887726477267018073889872294530273211523428954698253319917472686706479160654003385017478668448165347582114891787840534718983260667878965768671339880543150041556592374646777348065831494685025073748360289211540847219236608812148420219590773802278758283495071390825040823854952654008475192802164115895439073052903244981955128720344647860245684026088314506804964250721090000761004731245222291363048559981156672772822929163530363369456094288641526243973355284310856138146570115159743988308351752239302947823022775219374379377412833635192923622144280219051447241303482118747822361957274865159671382085880476467565174689409672427828822489717437878390053616235751349312749964728628144077699252674707059421049976462441547257898985061424397655855841902869328769982367955361732090445031423136792084590391938207447653751106896649619686570258632379492429822183678586922358994422209650684463792151308716641786875644945491213468022533315585492144910094213290192801805837833014687932219815915821904689752902005896264550998890744918532917385589276963894641555078895229809569838897328360769081341),
  (7, 313957345404714051861540534017730226104649723307880622956070629441797556246690648412698409979698084704428591114629791702618076122577962191700508064824212263422453606880960221828267896150890498156829313081692424451930617035565847824776631977369032215049635560792452186650869157934873810683304167732195430574984592458106374937737464326374654435933232147564289971999391606049017032900330956450530950031630735213169739117833043948310998239185055753262953634490151811656790759292861850899255461112670803234479949211602412524521379418315430141429178834840225507655050574814489167308890099665507389818877311173822678284254002122203844445304827687872947770134008055475921218726977629955787409247040013330702131935970044531418357984776340271382049906414645228789915991549714189930938260167645739512818104781338653447426749534250600332003121656014827528137254964490271974258928202567088119318937945969802495980869164781149092583159452669152496925897083257398908330925446854999235568964045131087253866634942599521496669860747168597101664202813317058131558107795562980047883505757142954299552918967681143896901891207674503628119225575025558303858600995611466679484312182700787692276533182290658161676693143802801252657151637821506786314214240717689736636869051217490469552353932347713289148799150725552266442248143798863968807436942616239487787486235066814),
  (8, 1115400555579221204501793828064145323625132715889238791916933129193259177635477813384662262236084319171526825849944201616701193282842873314921334557056597217519046718624623159954964166299228971570405068837645588260196721235096531987013548734101079471690935778811323283757663055606008877459004820779126385499269930996413701996550089484027006520013117621077078823075338242350856294039583916523849005499012091082881209721595339872774126771961731752693060693424882187431957303022265118738884343630498119759692873783771505190008282036428362507611136446571100249709653606140908150155475552145060866205303224681069729784091756109645545952364030341190029709729032189627848547981790367898424453752568344564729343687652532435870817496863836991075124802787585773328977802741263659338183329629707893871407840931347513226438260211254578593735329823844405214440798062719815461807626333387710823385129241437932256480760831646329672033758792896786551497529573681002759503965873233357235187468818495046664313250200587981093751615317130359382942453773732178424128534117211867263916023268375130724787457694387924024416545662169997187518052422897925333225437118483428724078390255406290214345736715758481978060543180661627422414529841277229372167396644013645664416576398789572205560584491612428219406227174937241545941340873485420644232325782614394308),
  (9, 3962698811147977567166101053658683368130982372751840585738609694009181714717292569306516235755865974864515613695716217594271289509474603516001901074107384266366149172088111498464130613325654094475698730227170998788454601094232046374847118152122076650168963065863619319478285716250840939732586394864904326238068431807497312023791698308723875214856198642639664424348702604386773963226118825260787323468790401232131194296909412858461958151543071525299881917536318764774553724174186863887159204120174108821902598918184087004619733947764226327632060696867811521249981887183751006473199936923851063160751183577693729575101699359313819401379072151279209314115207226435616931261273407111021263036464093562221022493661352953149963329572765502309143071812966990993942139190752253240898125909898200696095264640135924853256405030329162797791733583745306780107846450299963047991009545557950904439403470766379660256341849096204111252740151649961691546363311308074253865721702574077344155694187554334292739855124407726938286127126505116498527478610006466112301360777443646608769590224968732784841582793485410589655788674613641706460060734799824632863078384987670626814936282538831178802146840845538903441287423906515262740494126888971819252027829024949622354391767439461704512144978418856085667363723563911010677492178231278137104),
  (10, 14078334271331902865988542763129073052151988934894577403648731085216573840729710444842184229784244475299159708810194820196213390451143977756494156047421683788791388181806892626696490159068467898164906878218868509081767829706535786637456617683462229174185733405492795069869365378603877089363245981931897881047420752791400787003054867016956120603965269718001936014490747355362905904123205492555780876773462755239063406154220860097090757362334555314830744228289627403592567575338232415614780294249094470238157579864634126226333897405724209504399129488901861582128496362940065745566186936783918295506450077346349763640992944712997638850208205068096878115522966462107550467171085298584718483413041999917755555648786564970744660251000102437256328968747799321386377123453974086580259930652715696922949951484596958961822562018017265563710040222744210738191284390986935915636157603976886975173463963857212247746871898497204899188692804032116903967009962818461790060155706152310029780946796268948693583348766023014021775712202923695890977228583300740016753491343924519855557038398484769073211671122156116041004952116690047118824606944792647651760957022225989570317827215912062805011408877423905751949737494892821673302968084249609539444160790921098808780627678969555602660441277177950905349333265349414872976578),
  (11, 50016290740486734257745179246260651425444581743187830382342195481785203415120514751074353760118087831540235686170329714870111780737516858708936794810361745749074871205432986537774163192681228544831053562158972557518296148183394886066312131175458792051052133606577836637077060468228769314305445383908114397710494191043298382492760605859971152412289788877337798618650123768826552975934893270547053407332295034987138415353843115330401606976574254712029500880595475832963954500123664159669020158990429330849840922697901128750906342921653225290864702006750027799343514668848576383077595639235533637313047269921461305987239657302004185802275788816817503301319072982194137705289042012369970121501133064340099766519999390118884937221125852219234371355086535216476594015016221093541304792776793176602167983534017841300654900127822521869438883709101130683482441964828287908936662440876032304541020312040115763588137747963302804814462861650792189385251673488704109353004249262241661367557398743624684673463283194263820081581894413503556948982438682764608509433659743590737056019102022106750940132806849531606140229330091768014296426050218012136751047789244281138097721512800935624792601798189695574570739582030564722658397516841362078104491739473939692223648687063647790453731842711973619347005589),
  (12, 177693560276590056395723064661711459512519374979390215622537835861952272207704036869821897540042555730864519909212367973588128864781470137433447557421437131172136756182428692830563090839324148876809252194273982743476012118518507371569768804332976202612755875544002878417433992084642004678249255476558639080446135207023766549002490243438398751196024921047956718988736653020149535734386224101467112061429158966728672962723021254768701762488711376562482871863563630060994407600545003446047403482276754015067300410272470148068557957265245851242471182753313129152216428497185690045077406435451669741045489807339170717125539259846804134931644330268403220789675859884206011348656211667567012650275554300810429598792058115159445255847909592300520940937417608740144804612326698042659779018217424386987792833894510942277500789240278939005345303821296977237597806435304793336162422475288113952031374365866739011601771964961261117295422081205413992593327049770778826779704976813702424839119462931184443308285720105803853390236816662517068244624832437640963450230318509082848885206440431261747322193943946564666445778453561396125289561433645728410321879534045312259876030730335729454904623436108088337585959788535725643721829125408800237412995059614794294175505691630695035533304302132),
  (13, 631294342229402816697796171260788822765588346113184370347460954995541272466056301730297297823009315219396313200705492269506638311261320017683287479646868445016624904235515788395229786684567403926881653554921963488325829837743112348284202555010495681432146410628557754369559490060630951824724574367162116603133395667497632604900879881307669276665794630247165454011112661519254401321128341711624585959687148910037539063193254857142384262007480005829346481020407218171166645961083231405721262356240522759759771568157554171096130194716685406470699542869742263747726086710037272258508545645311719386844692562516352712711193574956795284448831503242172476538754679197772686023112127762524167010351491617190688988078673285543201052183011768449606814962764945699347914563287768160624843682010419270549180448989298608098990715481375807702156218516316668885404710336233283105076232054169583423894050110872516125723107994373839823784150146863120996350604135372407791335995425979353775219272989055739312117795303746066037027498831846729216067085186978083441570989256546157781313614945393620480559760888756410931608287068310462019960727114826931504431600995999942285836818689945688727369819729506809175485363805741622869826879880883524338358011412128575711851369452575306),
  (14, 2242808044987764108305569874562439816989426141849095480820114385507015954836363042553761096879616286583556619407550742087333042857939773347493739236024866716749048493666108286942168301026496393741928349480907781868402501280510507613585256176984102017371989783457869387353722921079078928928838985140580023636166358143020831778716512450371813531069856503020664654041783100237432795584625259663001578614992400098193808813083389200721684140686846851868617424302979721670562604036132481886487476985225423077564853600156717203248498274762871341432555790865927263225380580671374532139269837377468233039382612625858658051609472661016281181108068321500228409131088556631027615958931316365660543641625061753401504513719671606389369294991505524095544713304616886746090391263687399070833717077748195706222723417656672763741960472502087476703788064493083838574099072289991797655384678924273515260555559291283620679980098631164120105313639053870692730773231512893366257211749658645918113089761192240538279192691441953732735615567980668762149965991835760676970070297298869846412388805083806250999538117301473903749271203493791516918278549957703759544362393737438873345481292604267252973815335041784583682627363559150557686625559605752757278338913294991350138),
  (15, 7968054820351838814593640856864595239235264549823140643596681746554878439910265237791126569105473317419653580655672236642789993005705800568327885130858826971508252134647805629236104255946658247971215692050278469581323652734676370860658977964107315079090162809400046439214275015242630675973739276474034993342479389408413339093032279160311096898787242903312718503776264001592127767937602057426010939220590501357555299979237123866659275040145071684593664771167381821010744872197522006326009165580705311091822031244748519907433952890453352827053932795088283794006331748503322856930956552110488051139407917225762851570925252037427388462404807698440990629398309714826633662041063935597531734680609806065833495826566841968037749905919039506571033558581866509872436378577368812739820346969306541395661133892386530729841592618506782895055136749541859726787163695027581229251368105486713844124071052250933768591626089663659500932845331691342901818024107009324335543871029364348216829422706336079497044438115444558809730360744250061748200715383794593169787559688605019471590875595811960697706101987487981794586944381783103486377290224012807352023556279231386160593225824122735729073704699699245771237500741497325944277406620744995141973960),
  (16, 28308217353696245817906319277542320517807413259785465142203554998995963529432150230715331563777231300419336366245460953346899632541443027976157101231744757440041312202964027837154874077706730332590779014091276869114195068045618949030949018080986388238394236827133619411307119460881518605694890583187497388957181205911742477685181566330325242471087829099874676699415459785285974333879728907795975129675236208575325136320220749534326199068861284347753101439932456958852728491384887399554803144428324341290526544571365689888274463081264374960191548762680766749633433748923475750313217787772004112196838993134530154701612232903436384813141846730062368124509518702488309004696128587222829279129579231243463759660169988680895891376344376541591622750110725560509274120036607999638728593589192874932367090642266252117538226171996235912797564428245933576950205472346501569303043044843587896599001738885875402842964954940399829566957835813078365100594244218747259883152373555733914851968522623066134944590415785340228159743367757640930555762315121039028793953230904387473049527444967934911313322958939760094566629028204893165577296374262704905227860076598752664798301414249500009308942683534233578203167670771220165057587873),
  (17, 100570991014934370674560850309626120654397898802960274417030301915317961663135371817344788652012366371548553325416225424315895624763481308065696500022116159698417846623513681823975481953349949764454077488875600711232731996054280006912581122268286962076879251622804714157080921171717302107477431800885971529727602579071339326635771152248556043926043305347216533716247467770038690324979771545329665832736183292351928515700694609102776407883301901150307960506084928052149253443960530061768576872894429432713986275059048444860374840037537946671589668180078429136988780175426952291364620562930568724613205919860555174648704416089289514023955363947342411858185757876778979338129926223671595431049830119107222987813131529538666029162348018259803533455292535814853453441759221291847356934570374392843153755314878962439093262431409968034522638644698906154305872840030407503321809263051605503362517337765385327455617104612159059658070365550258328641159442090942566029814014116154818588454912386213743242041027344154085161829930132547015873240092337619759755233910338179870599809282904005549207628257418671769359143510433268320749922447638314643297561747090396722974757607293696985093836170351340808870986154123),
  (18, 357299935469279612741505226515052557994060218515245262043685776786069971191520877402129445428657442006498546495465353076482613036416613667489970751568208696718961358213255443501933974748929578042769881168096904073766253859127601824186303937367934800579686977154397859227262732317304390887633160648157014555179964713258795422617350653555078721716296660372394930917918528372605245824117657865775988429164241084208443466610186366604212110627620906023721973476216817474512955655400965546308273960443207189690846359507675504333600855622201019455949009469287706284705948346765155645828644150194608374049643584045813629424554699679481834830379522199009621345469674382285616482828110398818061680756898892063735486787921445199475659248140910479314354225412516502988972496128400220225622999988046245739425847177263462972348993958924697810849666533121468977922316148951489634783007381156661355328043120213440114346327657500244709340920130298146702219481995521275085706640626923493899772042332846905188599745728082199401235647305858292698784258075641106727138693758771368510568052743822828095127624419106217065878578991331382644466190583034424247093220114622635947647646317098936442993548423477066),
  (19, 1269384368176245959395150558588669859695344465376526209054779943081108126504549024823125497465019300614480878037203670332937878969007576541692013277782566748608990388238934498239750236155492679453864046365996302063785541701888355078815720621917985513177338593331448135001205671973794121099505931653642017505418823167171621771193736995382574838644617402296414819737146218772513058411695602479255698928157304849436725172787228525110279913077778623260350249339782697697788747090189664654887287868388082719984475799562330793199297060959200036677248879859148567151926373052948646765360672988231220211978271074171922904238666433900087153121716656251824144819921601686672073586181353918824676047330701984634526339951879581054416506627477388727885413611050461635418157932315972503395045374389985531723694885100008722114714304204663918842422324010787836191973878806822224108950855089801053052231075533396839618424051452002303251625107757625396041320196314556054776372779136188419521955131072472213507253252133285245603128445790104426414580032456546163109923795558536359380305323146031538843395556373535017289209922815908311884784791750925587571550966706040044656450010401981639792),
  (20, 4509759208475280301069967089903904379239010557173110559342816625449430484112230831865721460847209203189155168577441906780257877219524603666272402612174256648135150229844237295536935889669978932139798808854878238832190865899066363478253978136642336640624288411528113353914213490632058242722400832937673049746574431989542197283049549822147294401889245571256078973963874356814020879410860240736467470867969015733353633282786278347168291393663887672219737543385714309699312519406751905588092511821642754625772212049960539535218007717386967800185178418314352793856607963555645573906025807297185431872554826951939037926446695693989477654105351406708398046320148732362880249116282478964666954112615558349260237219646192511933252699156834134158199770096421143247526825218799110436626933435369124064497808116214051631403084773966730040231903033041445303438558166652761695968835831866081739309084798593598858899965223536883365762436586005366817132902947353715331818735716556121554829194965937026960689177679120505999548416184452202559254955809244296638488465849706347434325454000711542937857346473067341047976239381114664647537371081469043040467375328633956319998615),
  (21, 16021883228046648288049763273135910350358594759161372278352134747512389211409210190118278166150422248354186537886228005263894677126489098619801163935158629130253694334286639728535333978491830933918289790280476263831811202106317052618514573711089840346574989423544768932267649186343512620291565557329509238636598070078570534075799791019347020444347313525867374202831692133536097626528019477861404137072899145740314115765508085854549916126870413081276956089687197638580018546174528302075019723182133029928920862694356726532937812085986336541712583490644145642971228050573071634993572008827980241946387466573215844631576230360477552778760480491900366932894578687153955062741154503749937681608536480646957253019222043679366803698933978711811594535514445482323467552001814982408747058238214686335032813489980122771485150385761741765385249654501994142433416888096029546471256548888999349435558388878124734276388053552730509520921478425070710597529761770985893830130730508847574703231390715710576769479721118570188901524661548445196009820485608940433138648102818537518402180052408263661864298322602445502368337506006787658863501528269905373807419438),
  (22, 56921163704425653009088262284137408465620192853724902727038194241204355746110402201474720719966250642422474960420075281546895514589185078406079170801343384519035219903623498284642799584147464507276089983209304050972616558490518388490338614755223433215913748823115159795334424992828959305383184945020180260529933740367065319090755050337360715830738348322865413574446663366530066335713014346216468684761832526463060289378532579912039736764734289953356082810697094624359303857994974514422707028352494624559628500628451513893458767107298742432738774919308396051031566417102502938001116834657541558235015804254228571521003923189478438423975331210825103091892495988526555190797140609055096179064028939089606723445219792682343719578426475340538620856028310425093915333292828044964130675745897782027789026031966365171299722651906997062245465718657861474193396149903858422787748975891883403176166830782101461880502521879342106002083504220249328747683732463125699710217528835686640404142554553937143364499251579715271322685195658271754025452604534116876885530951552597208141155045634343571678826814837456588472207178022958339900924508121),
  (23, 202224596905955611024865924762172427853173647540518596795202889784108733359283868230259602398626308578934906849227371884392196628927198810309843575799047899433827594974472313128340770959381218955556711532073080842666771269799562519474771046486777355312063338115234358111160961587518724888153034218235078826815018758960694779214701989422169659714037764512061605069159012396547106276447231984919272508569436746707951220182524494049544247661509252912125883521444416943635160983188024326376489015730778307612171220698554612814707838049272804337308809298630478540977553169920084919343136731628917679257719225494812931535611741145987017094302581436931506948329616558606372899272115596878124770246125343376017812177819898545591368172924725143364251457144172568709374844930205498347892855989574826347527402002466059182908702370195302721716126409950360381398032812845417824508143729821152688357674510225659201597028499389347506837417835962536966112553310504827160892546368240076098982874777701770075490936431761090184142085820725323401598726520771765113869915867616137661299302438519738952600702562918012586133841351842640),
  (24, 718446091617705956710672142982944975575682802359688838561179443985724664966894679559528933050054563760990713380846883795499723493546180500536890092885215251193029910490652103505982392162043549019602691643886348212315238263413030919490051383344483878488742825095536510499844104016342516019310814876899509424443901504846702647507690604634581389525883439660211156298284906528362747751427377753398930723596424551786125861179231201168506429374038379308323540049643501048262667237011755810188478988219096903876601427710796640720895739398269179063365569179443925014442057653815191940973401752656197390993963135066587570968751166196697355449747208018977228023879771227011533523379195530196388744391471082838569468975484094840939457919205548531765091042551918740453427524778673024948033167308072555769334102370693500856081160186560012676287664119955844468427845715278091043133028416982007822078421175087056635110126604949987125561929855106647945745084452637778348556671222606925716439432024634525848870853336864187365488827906442710319837154434883585208025238716028546779266649208557503842859455284262619128),
  (25, 2552433257170981863419968302448186305666705217588546043434332389614825817740831864311448857485425505448229136294624495191029195572504947977197140903929605042297019361152806395075680229077063462098361027741640143817090938197413517654475084069590038916746063169311527866866541472803726677011975762627924913148703117488646450707917134808989279511329625334995125585274013625281820153217279943736879952793104651760053961102340846882329495419746615352026436838349509276640470528850143792745756169140568333865557315135305412968499528942971807623828924705164002229642413719379466359983632390366789607367782004217092987573521451503343145625174500322344938434179279403150153364066216480252507856580122203436652490480799478784374018685310603880341117252928290724719307073040071750020539035726810647045927393818172030997104943392853667730755509615160752906545636122771324280472123515137413981529370818898867627432274128144845353423386323402016395227384823079818361314178131907862573159656691358341608969396917932993285036122856576294935082710576880457474646122693437220439204909259589796491794168),
  (26, 9068064546976664045345615869735618395234784890094722852304913337259598256923822618743176553427877825613127300722114281907086292635628936328363426269766041238174449862984283736990961092335309466599685733504685969624471433538607519347163631343242822839364916267298354550755382322804104962486262886855303524486882045212064620571073926701150751879259904821833251223758102900098592702765927042694045044843792353219860875065950434085697990197682171327736131297390575684291286964545064801871634816537133233005875119072473353702991734744547303521192829577657238960378868506616838151069489969602307617295194806761511388934433509504914223719685829669442486052271055904645307067493398506993941320287440704083536375675891080744511342317432436149636281597406836541850705896093482737516508756918191956679024294584296975154694160494777402055320583471101469663453840583502147681116599319554958528960493881111862629531696085485339486549585305546653686047683393195303687595827701578621372906840844829242945869715154253521196504281865852779200467550368880730792986496330778981028577095602),
  (27, 32216236956289861998021762693638046909096263768271920654857301745933278372020760893488416888274193985399759656907698548547665114354390909768580635378633449896932638491564246894650697656229388125125317307267941549840171808009641265425541800991179367625835952066276329300206463993575684989729747396066640606047151767697530362152754174691263073808258016661317140090254806139919426409668997176162168631363841886709525663924404291853768676637351729140363443439520721100754418008635905517184533709259608623314394712636623721348845779679791120512482387463645552601780754447026827494867751263573920637928996965033998928339777697964916445433246753182194058502279121660397300515764006090826319331650838780972172602000730529504441703621847630900752964961856088287115863338262090888348054174001068422520998192227250092408042189685300538260453228462476878403855759962802660865875511389624564583395826461417943438860522536773977631733104570014262030820957532318652479544694440078483918137880893754206406456442084575940970718084912843249200103710029165497702276319239646),
  (28, 114455065714089208476955273474253427356104366794909028665675882571169375879168089559415537650985306986938495501631857637461795869009474237176180492449736369653595028564880375990678010311645309560636424731924668484737750191050200731359402798372497640947059778917620780092812765337753280156113601848014982231117470830730306240329078714137491608256375800541054630664400825920947917814164175269419021075250391158951137753960851355308281102329288107243469048313873851126957243040110437061844560962357077108036800720419067679743219777981002829144429782740514114582429945183692321169199540532629337956550710578157891920242163423155512195857244299554030871001453210313713884186772684824185142195951215682796605036572402332904690023967058874576212659173837628009748979155398667978176271085716145446006019267091766115488232882825883487708082932580748346904034947818646888176360558471099443639207690105065053583184845756255178973752975798438833588901904450025670869959497840545627145208571634299804705626696921022754049410375382345199282605471165707397),
  (29, 406626077570454954741859671238491910671457556229700815697739395812850829795934578070470655756399860745412750523655125922537208783358672680123577309706690988568294033331370854933616990619943399425425044782132987410029124188249485638946377713311966463106229877118454325898301126108525523350016335115295555024479308879145045240225466593164652835868280791022238782746004040976643231225879216841502103375384504456317592349850725083045265870152672688197975358890635056947998980570263316474799228309666056780683465953366742077273447934248748476049234057713685042518310739537848840471115137825707535075329269714496509903375219953257936663443975110837926885836359626716795307645565375585926577072162291910096191329963220460519989884851457354099494838335329502202459266704431637988991918960484843353308289833789569672637852562453492152775335033592819793115698117489899850039308369373017804153590060465732186276788107159503687360396571812163500602786299976077303949262231850900527626711031544895099420365619263201669784449130098070633734),
  (30, 1444626027941548879389655977115907286188649849484380694156511267368795009943250484491523820041435970812716329176535360270382599819636029821351916203677102816159184447042814465098164300442616789956051962854150571793458099237204399539345366013208030377890018332885995014785511351748416769247343208047935387925801751688741508559933871656130054489140522346070265707659544464208932024099422679489287103306283570902897367992958967717234952185431391540904127835492541711867097827462431429108292490026048085642188715934958138908871835121959723018044054201504063849109926190503024939446901748729926882910386547665371244949442848718337653568434521970451764502190496773523348555149659343424335064449231654004546295876067850049699634235365662916817789573256301444502742210933867391792744119531599389562960948702460997712425918865325454225096037221872579938210966641397445792209698234566190992000477119154590786485380729054101272806794057595736455095799789073776671924270965949609306496941435754598537304658722092933642311652),
  (31, 5132342650219175366251732758072660396168806505146096320958233389464435738401172970993698001654465097987825320929770215167247470658779312988968670352381816770159106678202982952179540278488249746956924336608631775623685553132717983044647404302935564067986783004776878466605834289809766237224207003634771907932338847362322228775375775655227721789019747497456569745322754500481224312478270659771649431868509235614331389873365612621954104122299823935262747077242291071398025598438287088716301482716182078361698941105749033964145184857411614976607600157067987230350967457101783219737737384456879043553348386286476570774840457694281756461476960311720028224915187042101085702608578751040909761140530979204468313401173931501159435393162703066907724160901559380877474105547937832821027903729385836922049742854819432078781512233355705912029291624956213394738427553302984104421163090168910026134721930353775050961787637988720554286656646480281001496463308664098323024163226396666793253612839852598981477552467),
  (32, 18233743937724879082835133054887891987650073506962997956855451027509345388470666801316959043981800540691385922293115893805461775865166320148235962336904296315364272651759531215203723343479146546133493475169841870892943636067393182445952264113968382972028276628779787197508121784784997875392090107150877670720272928982986928671208828430493020494721703163977259071240959899573483626789534141365048629070367553210694859988790596025979038862470451331557359723397721143908258100074030965417153585689651929552629226890698467150830200992955770752589358667992978492452948698671846802933070807014340991454051635301767268737419215575764134737638499911860206098596784655386061098924614059138696977890746316772410374411775666884234205006540176094502172960247229891964586502480778141669496239030271077003229273322140848134415075989795147532579546240551136061794102456433372579941961018921892432511613257278458234739985291332262398200787687536445969982839818889962434587926200706873529669368165044),
  (33, 64779271503300887086265664489161125017524772953560578361217817997574802960765320851937186731041864151917003490741521054749305278140405733282974986540041215886860018186721998799284432889603900726646278496793633901848407802743399423824940669596971016275788729745882886836867419989918196689132266311442541247061914081168463499236085668650606168109795046788609550500982549790668527224926815849632681800342464124710188595417405681091488304761644262461046555827515012872356567799609178748703784883059429561080720543225102053012862603417576765480103099261167104670022886023654229644324115054568328167857202366922043047581214033010155817244946584584324000218856484121579481695300925737078806568677967859589407327733690495691012983446963366652776236012923991122218525676035390351383011693935583233625452973684138069194881281331660873866331946483391461274795075927353218779680764542170847331460064665561123649742872007218136912894349520200482515997853986422026885490261804369276),
  (34, 230142203972508550742282070051065279221535224087207106298144118730330386884351841743300279329680308222510388882900830703978930380559140663205308593362165992910419796355093065185160245141574011734939654505160553916626070512817390407977813529772145586618807761233124462438821282681254120522610642437095909141440280909195562839059639048324634444887930750626770583625757608613966429034913170836410790876026567649167738979760527272819728804977314502202378791933646126753217499810642954304858431230489841055603937012966817272510816537491191679799017707879208895833905203994107110653796375677193870550478960104152577227123537655093159064535536035617738131636490456857863880345463979721351739899485625749253158981224682246702899353620618847120777789807052764344377181039940343893851255878271696665977862836137105642776052294594848213785734760610639299685321598109645647105702922817658632293515204285853039471594979400927268937286021434482593801552113348547891001),
  (35, 817629356122426112358006627016014815089076336417431556562519712124733881652900328672118772493889722676777825266828012843159464681829507040352597589681828057843019750645982899986422314745389924919079954098181964342821254777566474586968373933516380655173377651696584899947670815412174222994006251628803415845824108420442978367715763881749902157338037342952842742685653042980342046245707403438093148743776145420157755965124251493952489932920950120786230158936871416719687247471802767282933996073816626258373738632549134767872085813482790723130656342579250328461827854302768577401719345796840961839253429776295510776046373362380950886973524221495302687594365897515453193177332214715751107248492050809970049365695577987927133048605826451329790224587686274304090652929426960992746476785737955975177878265099108763617054530808632099502691056964881097260600078492366131123050864456621250967063961420389197568069011257398084493977972737369113206136),
  (36, 2904802997684989351363095362813790299189080941806052594822488231772914991967483646363201801299743901114346390339548566015393279406813700803811420277902144199242044033745397157937952367296183542034810735181984726490687104592206234297323326861986390153352664539797646980715025277007776420369133957524366763343778460255048579937365232274799331896585878316818816706590065641928357749367387326382926494824883867587556138278367429729687089746261711672132057735143212163064866165886975332360575874596893822031652213640775210262555160721671528034542591606661622709193279815741242972879150885228977842745069760177509573033979131112365271296057332396822124212135529462117788088373990600073422031739177422461983785990202686604945819380163664690810014648165608401434924248579133799691998726172839214252044014116605011346789871187424985878761343002328250047519752168930951315688694193162338004254918716798401615074845344380799386198613265),
  (37, 10319933344096161503113845593353624604976491745155629313126468928533494533779033184697488683311462058307293398014609543677242979977441808627998725988213892176908515927441801657728434688352278463820293322264322194181883335034677295629007172060150275262034343412401138737930584728302734804007677231838495271687529212041484718343473061193917472837788204771156232581305604014589066143994865907586825885990778159593429580176860299659891814883960370752426111695985066666882187497132105871169311960929022965168287506567674228520344447863814099321889462873931157056121494728610696264826589436383475671587478940132607129654614867421565735446536050363602390447221887817193538286182911799308118699203951381502927778778540234947477189268790550848757844519326803895322344143807693855349818289657661530605650546992675676192657884177782821910587331923725377828811045591441514402562246946495576773183077983192105308890965071042),
  (38, 36663768355879829752246641282033666460110381085100177191998472382769216913015360094254506447382844876540607252531634485412023778314398500654642724286041371957297897407961079557482387828145954471709065537738759822807862090011629503397497743080713928741098838104055128674227804908634932715499407265150805101290304851527104636208859671594973208448409940329304240483402175890075919602168396815721963413522084367296637735063716814277506871430281815792716889019189014495260898922483544518583445164448886045714276765105585612179916408553190359088845628358233853021580560436129725176031113550270859296174681693489725168064514723941628585806948489417175222163320215599548709955632994424045804517608460531590842304026492344045374090348683208033463668626827717309824510171815072594805244165161104890249950193173237896076366214777366909986670827219347533499102990570797669731265179913382793213390819236403374),
  (39, 130255871354307223527679018396105684232503495980993254448771069969727480899078955524766266362429849140414032335867611626454816254445740144712725070114492254295505437539621168090357584745738799624735781668998270613740907073504720526804226718840290035718605701134916076974788996198508544621217485400324349998892798194581039265903664517613231572758482621473874097560833550554307694085980017783076016402728514395015943522000460527769818976960913491590734644653362551539716265941789318890229345586083665144692537330362877292671779822547672683437325692847733179789256132966035818269310807511259396750896853916362550768354630490861070902144939372758198669254564067350612446919352753718738044837145904631215320871235473473737066375517202900951389651906771174088121746981184624630356642465957389428180521074125673206503726347030370996819242200839483084063106255960974292868339314910986157961),
  (40, 462761815904525603314137848073903868710855732548002288413510534218628865584857676384325011875481866995635131217552823651057338787658111359891411034491043545441987694529548378207400051372171388751780020488262830062854316798509730286085878670264612948836478171923104969830792030190963048442480047585327980502952189170580125242698339489466637236701481117398816092034434801975653592668756313845666086436510929520047339890043757029098009017814752673848809146050308355875954300877307208984848042411785983209430374287214701897069338428333188365430434332706288258004771967889353082167926094145349712569707005012665418814191292332874952862566466023926921003432290996888602011511896131796245588676477775942158783736413455022886681026117038615579425335010895072696893542222131211169271404043620762129893221004096965877002947715706722765921282997451339032641079004770421152968354),
  (41, 1644060233390567316697207360483559557134667743653730157452878778978191809247482795741479619790517102002649818422074274519166219433181593103268664302486867063073772834974123136246504555558698927881451440982597596242180475195872198974050628344885939742555358733693202350266288226394103937449956192191138064015133214198448792197157802456180836667176156552561865400480034835556659402944299163504606683416276973831363062078887551544289538864382014252320965503677816450768801229677122397616066374916571017904083896038114972387647579487425055407613112600881412457837709593566154653711984771817401476200653914791648411844337033541697080211895710298683351500275292718124305682766236696544709746581535962556519836943203590505728458771794993135109890384897529885869316517490560599591341200353517160716732086995655704892680777632614926683611105349835886327117931346),
  (42, 5840875279938612566955695230616497174248521217711989654663109586530082883539743916903857793665072158271733181401239230436197471736582518187463592704797815226931493395220667026444887979006278043959282232516008535022608594985172910348760767167014548361124411122668869411037440608013788845239844670747872471322126956845622476679750271651976153961206523091284557132446464977075817526638032845670858475565869448909685130586196873468781359438800342208335909133040570510416610959387069605836389631856973401848619305397083904202489602729996175669764511895788549689608002231368245352048877168777118947310853987338791234569472640393376480368839518146349303180113644908979080493452183125806277417988335441852301579178214246083622163998748845187794644823506032993252435222242350241363785775775769110992911397289421273779849387534124624655471580098850),
  (43, 20750957503205613956807323570133750842531559107271695746501583764605253476317670606845872049693014667581299126912736704881714444100930869962921550725801776689150889137709537473756739625963085572235237323880627027330833538290636789542851329016340588346146056096137295262752728213121520062597139019272621669489242097015258816688905827178692642210459937841113661423634731573063619798433842875163817879417658063751585697263497369049294482066287902600954970330713415172652017499841963312214826015500086274237134019396307466387674045630213887693991588539974258863937285408078969973194929188055445350201730465495303158064792367658487238337609234004375212448614037348811489896674963550774508004566623531642304348575869564872750064394970199920893936475808596666843260948661102742993876011617476567796397022645186320986564479853418225),
  (44, 73722210569846474317072177378427081047119738980454768816136321748207839293050620479327051447501924981442652746866658847870164251861989406090890322523285422168551722910868084688320108547412294698500678165518092396733726231461773351293432355855989100366226837030437498029144704845488408449434214858592238245852354437063188797645470549304764004663808076403342218916948778412025947177009098665983696713086696883790332906738368623761770740028761435075383073892771644377552544530720494835803898556071719795507426257464434122465244275554681255429670653635435829286051235593302745847766045742970204738372141813225404200850280649123178872674714602292390287680163835915943159798547666129525903371067440174114800328266888071992998695872244883911119511936240207158228592555918572333098167532235887625129513981480203564745),
  (45, 261913905922904441741650946718874170383343407950088877158152633300175577677217903553693117570950921125368370023759676882484954247807669269188900509431354003341680406829781037062048584642370111547296141074239662146975465956212153292820919270254713458228696027545803790751855594102277501507771847074811871876295301674387175139315317868046261343250457994494044292537560207968014893668510390269822605702056146589996251630156265262893131408976703141134982571385935630167528999404631101563007719207592546796007545921349562652501533004904479396348653134055942062282884220774592875197132125738668340694392791094772275740787223845109854953885844925723214383220462197060011797781533134154243506479008288241599493046816954347667811757925224266578335675879456331144108508923440946512885997589432196711398760),
  (46, 930505116240370148764963242338674015681986190707025049413490454597932375965349306858673790440231674116121389857026986485113277495200880441888459804400760345336892977846975714804673119723937137624954830456093869359855689648227404909860759159826603503468013701918401353788929235231068663857124545561144435832001713863148933376252257767640745126571848410168892253846142684879824755923283512188391672460460718753637894709559744890839642782072363867526073261252977242060356855776200892611692309274062320911424304863368249188778580869895331141222528683304516491079559239374044449412285027947837985669412172030926270144537740718913076621721920433731448640900883344587641566394925500164380347583940306405292817104037676639712593508685391664894021622995941878873653355377792625279989443317),
  (47, 3305818254661013173620756483965529126869804310853684545937946575825820531112772850898813425289658859597783865982830016907859080870938159229014487310396789415765159169236311650785430466851097027072188518226918487137452355532028547287379195611969390359342252357342846853432977314044454881088430367165003441394534724624952311924882838073484475450066452188588427120434471772763046385577516680757429987414396845543735046377570073197060501979447274569748716754584474491830227312614459783539616272208830593112218274359772859004547379728033915139931171698814866545437859009560121568839212239403524935142362179066627889189141864557021285532346145780127188098675231828412624316977714110966119853276549596724278338080954881290925209996134976572464256365348611354877333698743476),
  (48, 11744625732962579340397569481401977238270022179924312929479223213838496530715264224294050966398326563925223332712839468100650751377636137920797265047656272741126175581599450619931989450782486871418939361177624405939166454849341817382815928641625498088146673377530709833336126847802251343487563760386962238171654228481910217843720112273119903753389750929271603996405495297345111409719904428135514902693203600014951255148603528431647201706939989353534527936695844214865322249456150010534327344674710308474373533317103908209221588854229113421790723306896536869822691327809213218816348012373753385686429947100671994663064819503066450243530802577274046263946887513957145844809191423204527315788478269697761454795230477917915849642162835521292600666632181170),
  (49, 41725292493888514898961153254937447479271462853220643756483892210832552403286627737678497021528040150163090987379772898082744175161579881890351604486693323224822456825602739745809063434811994924449519758630644085428700293220727408730758196446324241520276471454831240033069399231409277860029784896734552798779729734491451164855573519268718762650766057490897251977941312590927195787010195242430840693789968788870673325952512686975200449420302326580212108157701321839909003936653705012236672280498882431992912809694680638635364929092463044857504398733250435880130731138819694727252902917885211486688013519115144504181936043088441187098737530930961586325537462943910676441410549756190594147271481291551613811318700817421505156180155304960717),
  (50, 148238017394989593707638964499073521634185591911221435724442202580180180871446636593015345161205829605546181637193729223450390631319280184019570681418143700147146786415052976882113001354231464829450984857080042167224654094688278431868928044043292388313327035948540941410295830115960915568546409091527964325017644081972252552479798757527109048083132829250128723704624613897571166291711059574404685542474877852709612470778647074635512015910583552643853988198114947239083986152950100557216620745292461934741784336386098352725812886264051592779452877827938277465259000043738728451154090785816805738855281775111869623379329508087621956974498316475092786398660542410336153293744721616635233278083920197267536984378180492316482449),
  (51, 526647232117446128923315614042172404773316401045311734650206157156234286530060148098951860480119896143755588145984806745361711184954799388273685955430910345656546381473745926343896673825546194440317337213500339317133745053531883093667809297912364350861064399888636109127915829106284180191716372640574250358002734432358651517546706104132886826664275888725350856043608468198595546661164782033138283897143649005748318589021388314060017827621605775584032229493581510357431189243854411029811502167419719215646136928742358620441965654732730350833792225684811502591752609131188728970922481811513937691272074234163197560604085863746094784596517746188656874555939719196038929462968463825857016527848594027093656460463),
  (52, 1871026825446073363406596051711163414571062450325597604639704333195859527912077695429189320748690392348678388075057960100780554112569678541475499717442207367884704539344379889211087350346695382394626962519999935525523003797590053149290054034311209151784736732932766921558587597017416160353524297902117374089522236122789316747000065945235385309105176020691095643613431461226373576527469929602776209819386423408732351373534120848705207252262585158842744857021766593023443971414392388253787961064245744429754469018468564958905859796001046373197333298261926206397120952006129204059127799962136561211814021278211105006414693074798711667216504333737452070387584918730416748971461671340127872911646820),
  (53, 6647222596164942002184958098038561809669966075111338471400672507612695227095676725885160329061780185862842856897713038414292833562193628185082083789496351952109663669147698096080593604975525182019324526721643342935744979025646430360794322986158072724000719118058883820332666113642155463171429970158888773640503047954488004328933703836600228816851785530929515708389992466590124500865628285897030585176356256632308813554618744214771914065495029933718987390416535139664934533020076846166245578453699701229930722169843779902991400928405197541004048452643103441223032006919002542313827281446507221755173926572182525411234550826144738702950789264844984312643004204128243314610034023705),
  (54, 23615678643426967661102928623643612872022736138118185321135458237096909880025211827536894787357652770283945290643207684317942200797490939413741110445440676137684399462106121459399332944259133542378711663712967448271907016100205266503012033704452098466826355593868788408977151397036252987542878542897931520760049531978046143508799491687537889329358363939623262343438159567752633791639425167129061880717511496885754031280458685855414976012469340443818969876204950038248222398435316213596783697162404493885892475683479218158732596665267019931665749719863608841392706768656345737951668480958326123117115752792522068135965308793431092329884562925281552152198820050434779),
  (55, 83899744550659845505091029677812787468918771118773439785113976625357307837610902565987124809860424257589754702877521004265060451427411818202252498668536332278267457123421870246049439882019354372176163978350578381940051386130437672248858196726722579906428707548994593498877953447813037091553951577849978348581512657101034453862330256311349148361729941341182345873725980041239225198619750820859570992034081036985210015443395740609957597460586070492347915341796020107841202603809588116549771415608698830425612124953018113589166068636557083948613753128853485098614053537699097642287086966136773945374124984945148042585238980375794865596594201043393478336),
  (56, 298071770112997020536806153067078595131955762269192222324426109641934902760775058906001610712556337333126552824130420025693337406880727228497553770356753005006282415387278811380809385157065207421208694327673916380316466974029764899274995974506071287958032941648437184455997032310026704056830084822125865283612410223634941089183728361193294878131659043934562218236568754481444321916166527953398677986929210718888884660368102899296157326403518609816210510335599669354191243330540853987281392821613805450547999410743707539473504022367872411645576417492897844828996775465203100269274603625153564336523466832884167381255592903486593863797763),
  (57, 1058963654944722849424487354024932331721944761434414044399912869977727946209389895177179404889321282318793112880598320670901676987484034111929944297634684376624403283851760547151162929863068663578462580389198979341566599306647319019232186275376870842328000215787994851769040100130666749136193479798406913033409782467709889353286619585368857695550747650012546934735698046006481482980788055650203573485021278587267006035786534934357891216829795212716129271449446619461581182107193609612045971475310050079801497046929635501376805541259609728125231903814215662283583705533242329843406053517627002167706686415510995087929482144),
  (58, 3762194662274690595120826294958963788963994890898832814329232400263017351775148278364612156543511310000119876967001745107179004574864294991615764798014803515868066730190945733116400114717396726834876101104181739722042670379917206476402792927215435220226711002574798026113059537143154874515474053690103612913396548299848853488951495385267424395781741478566974154738449368352810297101189959674173731055297223416710095622953532561221330387851589242935585358792463889725774979630276473857040643443720891774788832719018207605472326791109381744557410888906596744247821794369610676824816940150172568729642800188564),
  (59, 13370176693952540522749098452540695901362299881748892465204259222809966810830767873410872037868269230147860251567243231978274430641405612200116716413399576101707563264919531370832351913801793663952914541776441331990385930177795826467459196629712951237637957274294121113282303151280701684886242774910020479983185961545870087307538594391797676246389332139772693201147529993355772644139730685685464732269558873038653477340070802211630899415425244101413525621802661427562407924798150020881489313907631931358278785275461123092236872361015904499082614840723051830414616440676518185364153044300208283),
  (60, 47484607002293007582218369293739786578855125582783800566737589899494278701284396862843663613003612791181331692331304948625637866861282872928871471006654955216883394188258433270104502569602619281227743631827418105564703777252943174567343521926258609076126693265998912689173853217276875312323803603776853544199845478692428655023067639427641028496960862891362486695556088721015853216360474594320896282824408943148685184655755489687446026218552883603499071162886128545389930407655430784612417271806016860723256057750796645997311173898945206970413131217046216849177800600425869536868),
  (61, 168702643287569527094591811503625633044328621015203304892407148679727807958204324925073925574517775721613455913572379429565452515874068904551388550588719921242555187468556589584807033812603087214612578076336304814639235401942067278636570593451812276812764341530129612123863530386177442615019359771905422313803870953650127167882897747985681956737617148661882552220748814695535975050017974309325132350159879184955553756712169369356149261473916924639624443427739620610250290668905412827505972955600949000230464203555336943402498294295085207008715758140701935515673862),
  (62, 599365863808785931787493867336491884259721754477760363816138498143709885079094171990967750273728250447233128465730233920797360565264930549471898872051715090952940539161147904721624188551238356987063380554395085797057957343105300673642284695496730637930943269308967273714392634388435920915170259204924272199999177247548925519799365328918808023440711176852539454428110567299528867223146945413370600329056255196074135260540780434134867798096281258938976121960696992400370516836919639356350100729994278878555058119976939694652689612906184162664351634362),
  (63, 2129326718352152770636592650936564325561197636473872704100295277285098754140654934513601531214522408948636927287875587730477533287681654147360382525872710912264948596427403545923567044471281563047273358075889162145705431081367547264123427837148783883467226592007438786873685437213212680087459573988435537251531977232407131876605877772419014239629360607344285608655016262615547384202358374980201283679762087828361724322821771265259057117675750824398139913142312720496572913513733541907316986299478813340135984588955842359485153840409476),
  (64, 7564882375969057252634759859599934272558991360705858341165398806649717482303390392281262253438770097443714456245026845199310569713148241282400352127251284199434460146376794376242020365370103624842212992551060238310474433831315935315436905732907429120696173909603906209469606875721259360732775492412756243881107021745251775572498107831758250922349372886639739550848926111542061401331745527449017128440879643897454602357906854984274646522447746250465961787328163935192503395847508251860184085774051334286502074471181367019),
  (65, 26875881640809050976316420074849746382787637307774721020952732655467975645815586916750668222188415638011774878839579133941607100119107244464844724922934277592830563133280368147625444026933124871284747903757630923310560686552988825258078349858398578829365806697702638467990635395576608447174997068102509325488878250214149026863538316435370918708207192868935753123654663452543049802921543191443774643401168727278594892048523564122932102488021373086326672661530877245218701134820199440735349881674246713009072),
  (66, 95485683290182155559478939930102114004299425360367444494266146607603935189995172911902302296684580827847630026197457682035713877103635807650371030033851795210158030302804708524867570871774256904296866556557166279812640994478741257796088011780303425557168121250736263579258934534101057071012689031254075452975241856522313880538354472582435775941970220024765902365149910281693055444475219630918526948491958323019842664153307785989111483129583165539187746129099362003327508722457637865298414291),
  (67, 339221317116502399929005095402854466534222491574572261983574888155941119168458427687954036321294202978326939747242988605376599718660814993927007781062620936433246620443497933644998955347357913700582287892195790586373535604833946208362498620423276399997396476115918553826630857005902496969038947358016000821147925828826089411874677435318258786760906985256965914357474478592215432567641424055341667541257640304489318334145477975939903338825920097635832886382571055236891733798762),
  (68, 1205032870603763403945203331537247551733584906571172178548523109497390914229403980980875287436557253241889067518700241723504230750274527504224724333542835477409622637882098975482705165067573910339740660552248475414562844321313115883636645807699135094932828779793344464618724274676676371092720635804023567934280908830744964191655335566085976252816239773998677131958281627365058845960797648049586007045725276966278632122929651738930835079893655521887137772929560010),
  (69, 4281574964652607832775520226411035484958731819300772057973695959359402179195212460124403356555346097890350096394155488148283476720868603070620076453683304559170816153594884747439920461828951172272844715748307453849279041794103963416555300304576998714852129723998963169012223295606109770716225455420268984301114777246845105009848657728394934765177687138515632342479668479172559763846721946687992521417509030226251468357607979934738638295126322595517),
  (70, 15211209943731091100590887423495366190336120370610480799122795872148717836112737724205459512817549012061429493971147814707116749364943584603304027879083652982992997602241881226177033121710018533524287279229630162250658981784556543479603063753340241120658114062465870003185956601954548879522939092235009170604728120208545785622795000696457526127867332373393261902889550491993582803952114900766338839957360642121080892024237829573764870),
  (71, 54040444893585036457453590459093263525831998166900986636091025687483468584628965413536494107898353859059842282123555453606604561949909881094149644373494892006848872043983344986448469002858642606301477753570507589048667781984184120353963959481217721050751974355319959921411311287373002682636691206019211470283991103404696038068830240903648464246110481800436069419644539543743277582553541512713475449459874885797592334775),
  (72, 191992461531497033189987842673933767121411526298982053532666167317892835961168259780856170434248967650209485425667063098627592676078826732936667872699998971415787758415853059139329834751317988087240504401474108522069206698869014352730665805786262451061770756877070496937326640392455133113493282164022341235117545873607821937378995504821757704397582138108923413832103239800467342912398087300320777807332916),
  (73, 682116568960501312868072230390917037880830944115100056253323631509435751508560045733482790158407679160252229279533435521066944955998112964966997639433508065062350076898037997931211987860325764768324369860268763542481247153418239534760419098061976840404473073065070810987329246706857001600277742432625849421974383326930835469882222956381900721622017518420441939706767273589769503055586216978),
  (74, 2423285551989552578523349147367933147649893458148188574042337942135198888995840781183591596279673747265847548065856201767504589934442989910219075867995602427921729038010878553734685481053096438434241117533850742971002113389511560623841243944777196489277956247490131592506901353043760992539070884352994525519425425900810319816025669871491397404331782844539410388984851887254925),
  (75, 8609728316933856390869411257066342398383680477585151603047842843653723146208249082354043722395848203655495013548524545234622195141885016058265542963919968554849757845110746251991577693049737180628159051299757106501813594302121267522113601772091403481228583345097732664077432398747501947176939239288935204275293205485802053685378740303259115197007784549843209103),
  (76, 30586163746423643480000854309859056074188305253790659480002263431865186244205231258205496127877554921305657932567373235998939894269623452117803601537435133978764225642055932751417516811160575722220679374731786121572546517268263437372217697960651894541805506417106318876902252712598915971660896276457622601957454040998587856384450294768464501287377),
  (77, 108764857996021737686585780499108254007773532015026345746959164756301535068265072651969497082043998011243630182400797412636483119830315272197935419029212480523445248589869720199064273545977811068905421350128710468244342456411049077385538215859144999217367639319653727116330240962391678980606731988400087482301553842369184837972956237),
  (78, 386051661123869583125858357865711438904990588706735161357434823926282349915856891337285283331617406052775034012048021182893626431166563782678654529398404925091191185534406460288949599820220281370783179787511938060705458289242533705271427532480734550291317146887743629094530894726114641209284458109401211566738418427996),
  (79, 1369091849103631781292421984069746902135790027185486346090198904065073863346700492083510855833595898802020493971943240358155319591624592720828206059007391840555109416919456417329920634462338417771400866560532823276463251340311009087551516660298607218743502491118150685003513069436592139320254624871573753),
  (80, 4872530970006552539155171483893821040921423110010696529575028485353690001935455892618783385464472720521056009365296541348645748593973242327637078660760602039813126977151996481959777774069837865587500954328628024879006736455357678075910409117472862721357041497157821214044827380045675907897),
  (81, 17311155196253540294049164381711878126395540561546645139030706404432511346790132734592604146842671256722717648217836003907056004079312269901501979889702584171252566150446439882155154423578113014736605149328430626457234014125441452980705304000456339823287268040707538157253636),
  (82, 61503020221608252170601970408942300666307559704154258920275990561457264809642529470504676519879734994805577237913467525275338985991869268734399749787794932360078353582164141633592906640877738972253299138434454064818930986879740047445835143164266664607240574388),
  (83, 218497496936607841115581151056673738664286299227344478838886069105421688491480080495496497197287125351634704807041050979616939926822552160882177243447693216611495075902371672288815862377617988128268582059918823620603923646239072052827229761134777),
  (84, 776287321086374270239204998194086535440018114597926378929553514086567384493521717075724008633932771019721094374562619783057050182841460628349869271565514532559877752397301169918960086317777461031364239050917211613570818690982726384),
  (85, 2757826131551003446097816853700439245972686814050709845162355575272776434649947664802926592794498585067167214144826429654067681542938531189706095880663807705112130195731037263794891470524839500870527595862081462226173),
  (86, 9797642091444283454546368463185984396516212402493864789970586479253922596932548511975756637448591733298974205235633187724114380292470291661082666864755770487443303095852342184586828834360801455579934930),
  (87, 34808659497239772268996805986655185345171083601153486906730279887602962479524868058002882833658414295421361463343274194535810658928352688590398693672450026230720695205015208294333622972444),
  (88, 123694854577025702796801350512644818336821777548110402122297055195410901804045610565567329028929988871337542769751117549475640991322304873404400323997803020359875758897861797),
  (89, 439347050248360582491895615179366678654962798574210400685070945324897168477220247198193403457245957100903672996207244888583753962929656497416217005433591501211),
  (90, 1560874275158001661034337552493843442932269889598081041743131800466046997079363175467462824314366892279512097657541389190858605318845653996237525),
  (91, 5545505738714734549258722147045742244430737890732454527389882021134659359433301804793101586823434244468260192262493314014153294618),
  (92, 19701003098197309598594130901716849196284244116878722345526099994151282764230003115158790508993565770916546760983255),
  (93, 69988487279234020438759638153581200054156576732966493889058667263731752079336302424330864546251681216),
  (94, 248661618204894204872079278935130048442970041931085209153716698757416415084251161201418),
  (95, 883640969338852378075417844047026955639350401864693799126191005933676058),
  (96, 3138550867693351503817082116461006329611378329216790646689),
  (97, 11109826461929230661821204131760068991148384),
  (98, 39614081257132310019351464616),
  (99, 140738942489481)], [
  ]⟩

theorem shearLow1_ok : shearPlate.lowOk (67768566613 / 200000000) 4357049400000000 ⟨37180115858359600, 15939377645640400, 37052486930359600, 95721696000000, 95721696000000, 65262831458361600, 0, 0, -1476354962500158411⟩ shearLow1 0 = true := by decide +kernel

def shearVec1 : List ℕ := [
  10884152279460981994758084651600969325225733520719436032366159458107401965413552790367913429733940673545774685047325898328353548679093739983180419643649469800142174668822677818525521080148717257235898828795086186345396757057388776247926975747654000699314391637415708411490071369455530417953435884753571483410628241629534884513532614795106822135414279035198677803174777590202606921440458925582237266858458778692991177311177331117662725885200524187867220836032298847509483816730275940646487927943276628438546478311598145460778357326333832205369648845313876030524288070867271684216805106917418796559715026599166479822856782505891038706399917428252826864302333251938066807468337349690206535498328957338901683752740482559147421079419954502695688985793218419746040549336825205860749386700690308309572757387811458945713164123206587012568667486698715654247908901294155682803589518374679570396274117121723103495359891147350782611443493052399792993645484919713377763865875779353629578862895193247235642692846358081048857620529164372257032943757797957518967891577853009762977029158500483723496928249330567881453121666755926430777324438206830853111841142068486954997938773103579406627715381244573877323163312418055245106689445441808633182167049837674876491742578707336074576669]

theorem shearHigh1_ok : shearPlate.highOk (13553713323 / 40000000) 871409880000000 ⟨7436023171671920, 3187875529128080, 7410497386071920, 19144339200000, 19144339200000, 13052566291672320, 0, 0, -295270992508745781⟩ 380 42 0 shearVec1 = true := by
  decide +kernel

def shearLow2 : Cert := ⟨346, 268, 53, 2 ^ 216, 58410755816578067107980029363782740217220245654917131149555210494011760000000000000, 677240597595777419770053495620225188176235180224227040883200395823394900, [
  (0, 143862316916206829534200293220315544883501236224106918265520379070681027752753391850754464409355031739709688487572346721031119108459518755130997648329922779363151782777718425243503206900224713455267039335194616810315521000824586687626876767905530517663410872190375968981101201879152357586639746356428940873649332284152714217116268748653283683558374642625695411042080870412212722215063528516452699089755105549696079550122116326722582206021243498974977676061177840615849624483414281518167838893803535224190822301839077055469568104228781880457835568914343999313869718585031586672469783958412725462061033990344225968391995376720755436479448710498761307430449110341885103923664166213783739326704182578643930455230640260033079968178171220578359846891841408129431689240115044178976310738670096044819182882199311471330362413031508788925429591310234306917748068165778670253134631076274876013747775963105467684306147658357350819252613327189408763218539201902542194700330420031378932109683789927875672280466966364178919653225174421489426623652471649524164732809829516453109503375965311407471283618099096784655081084319493219709733994496649141896331238013640169058340515523028305523386346608628808047743248613008921662694173658799943366143453412716891801210332042501131370088159985462643538652139346664312171578544985838371067792349755175921575545499233293615900470522694612410966427989923695806561136289165894778770805262081591440502140125852580121028533227715004033511467489352760927509583381976597165510065853455889996919973202040736846875961972739388855833248587410557312999108562300908251260831697803547),
  (1, 15971924670923398481705791639598606827931401469299976444557656345067691563212197398669426151924026670955580916317571821488913493823039692808311105982755641494393994810510492726659378459726476265257830317918000283483877986582618544070453656309806219388356657157575130328468476700629854813261081035547451423465755538028906832267291365806618257703605596720852938254709274872561660910965901557056791446906486181285077319683773926896966466855435075582795409309239351452716404149508713382364339048387103568800040680800062410761134587905563497727318090997110030692273922341253499037754389723874298968632676792072167382187787306633917364323820672265267831322486768853239916107358960729844220424657926728442987998222575175029074795238841411362400334508028332402364017420509212519883142116600410645729376469588181793912670715450553382400693357250770155406922530112360398936914445953782095272803939927967632466003270181284923856894658567112792056440657645150322252118310835535574764530290956517297481181600202077309454677967431679215506734290643919228722946095921847543803774484598681961683643526926267534278892118517719590586086217659629161985414247294753244046019672635040377083179126482029407300459162116916626269895581364941119240472318922344425574401160992463434192278754230906838650183404897206517608569868359724883137396997032065538532423934536946076531956140904225067952016453263629216887451060111789435156276508601675581579660092583878706908725874120275128896883809628125914678709410978807650900835231558503256397539418765928618618212531379634067350761643841371498295140720213963730),
  (2, 1773239831524518391568565694643440183028740354466915914966511677175772082973860416957703404226222095449525501470297954593553905877066634577149523206750116145601510248732594401340697717438325166539814081223866791435211797691268741741802548745269111479299521550235833257733903648215839192117321930979892284272345571452655860804231170567341654375904141949224551458303799083242336148162165410496634503382087556426023057356567347251633116297789900321566805842876609056488234385290069489148081638933625334817653128294036235825417966013565325355047537597244657871431567783392932272038331283737581236241769865977508946943912468822733429530510065474948549827410871758184983975004855730680225653875162740588629962789087324963187807148046635256153630156004895027167398079022124653685717188248287082296494088077608128680234816020560978816905734398316517669067992832548284600116815248986128297661953121498204242835124997069021503018535875082071417703583673181028099175708763266465860864916446281415781125415551349385074283592991154525423436784536839640618168734507911090602385180729693151821325270325621427173930697666941127100049283319510609802368128246445518986097505913746693593604800022006479718713764724483101392613638267317929015161107838532727478969376893031903250736756957905531136278480787822815830313971987309429320736479080101939612403454220141367761390356083284327912064685109108331595054339257922797920792833850620759620322275857348495728532109419994757410882923047410958898849468800672955533272092286675321293196148993903668653362419488171427929084169783475328683),
  (3, 196869171156663175302733838770238683568024106711340420772960563351778536875499865051451026261494465443296154871503491473966828570066102762243142754399699069243051753988320732263662721013622503692080174112709510414473498063655613017048559878448252456339266887745018967216803017131788048006067718335397690423266393046400470310053990785522061504977696611674804446194970213344616772607798937361026363484499934142700838138000257339199727493726023700561876500012222238366706544305853761814276871956283289034301290035806309627354779751167925333921439652295846255795592690738182328406265758286405396418427274128228724669336298560222326831279130646288482256004343195718686343123826964082009364950905212330016901777512949909230828427748865888182697232076337608593966144013692137446460353522999461825374817999069863881172877025729846791094701638620360895981112574268450432507731886550265880966277651758065481105367170460531213669560338538300525632800179177861017285517362614914558172934192552849827567040452051899414143162712642897821629040602967824338233701507444531172647943921551875277027273647075888072536897868801026755444219662899762889926700336507904361637100339036960231585890368460586522684276444257461148329578396276471124278343708407505886661973513912798750956934610350355084597171336856604139037951760114879959489523399130053692689238408268862223829739579526896334373328404219198169138148883098191480256213437657656051265216603721898015042455190025407669290600241348859424698401656311278271056267772391112216050654209437772841887611190562491457457),
  (4, 21856868706408781782310799676637605618839895435921621094380624314761979207019790835639442667828086039026940772254077980878922238116943161488266657777202620111926051146009979974128462437589058247656447061191667732798444430616328101692527850694302009679736290693168958619178784543395259258624920219681484175997649389146528128125670079480921965518647277294868312836278364236517806158264793512720178261800861645771242305065960727164031978023578121676560967045935943890522690413019683115596266150048934508368698567046883408287106479137417464221991771140218256041379454071944086081760377573310620546976101929625826279075561226696601813639782957540278789969939413725962582399629828383432336941908875391069305579203847522103866316453492102991405427633928174552314550832828717480808337764120260953766159124839441905998020165630177665627201567813772426498374855144752319819584971083816932844506772841353124070805179153945990798927244271371751452605985367611546580319179524253161779895331508518803803372911984757923104086347330364227279541428549871778441785737275390720895488382559013305531174297812485265385306233901345900581555629169961788954106330220771485714266139465474229589454470768154394537561247502747782334947273304233309524966552852833320855178084858476361033654191651900968685765732836395439153560883442848454561374511089011223524422976320498307893995539803707538987373969727759258012447915090784191001394992783421172641583338150203992489138178147273196431052362208862865358508986938820143811502685291225780400524264736405904043431),
  (5, 2426599883886806565573953008841365814573274095256257985605829874634575778775569939813329807553320805537117579840287667298620373138750502136037323080937077448642131178892161080341568625929239852091070712425082347599546473252871383972656691124554385744161782474384349317373093832686231705326958378865075569249674329404014409556432672911819440965050525539588268541558674324246533119411558801822482973748462746547397977792051417150977794599117398455164024712022073751628116351118216568409071700352725887235856981795007918776303331643228157313846312365402808855772969479587371268529452972921032976470127538470632137371222403026510867888179225290864047313929895982273014950505933751314527694055309118505154078020060584754564808956040324567218180456804646393150936050873184800285302196695163121114326196908637085401600080369518259044003675795576804554004442722703500593320210563490436773760326171567409329170550933227684521812559004300479711397446440422393875861777306726066114987382533523341366196065494755243770136401694177491907220886687593047344037213996449084247687358774103845898858544906151074466162729930432175348850775261461048557230990047031072466170732076965590803652870917793848226057671579764273623576990577064724166820060892526336656552895540636257484792774314052731776889740220973500415124924012233077243989413934800969846197235192950282830822439424135616065783879197330083519872130213119042263914410328135673176318082816339185614295559222791092014675476974280343865873115604228245842451577451833719726910968),
  (6, 269406706245616826709105018164475801258713662581647885552034175865807558363762433818079657050911234866896826898877466075974028280451613625289025674210554096510483924956704709734041627499476160504469802443009344257248952994303040686772291019234364878587784418100021805445565908526369818174620490343001903553953159587712163767372648382663796842988577472317860948153539857895284001852525414232491192502550258035339763257574715313450313210933517799628779948821840717179018126042682006560661965963485761233614629718672639538735059879631540443357405771816598133534838781605239708989774046550645998433801180786427227972700151865050791903735468936846320164608384541990096000755518451767775854994999204722864549369811249376266955353356829189300721214438909155422003622306919309985136372620992695404735204683684444736650823753327115216783366101432002038798474939972702879154863215199368201894325603679834852564054992120800910519481384030461471631440383230098764442166938126162628353788299909064137585218144758176272065046829132961469356573880348863841536312639744835005761538012316574440709135204379832273246064925820106499500277024344671890740660720854232543677940501461573738463251991660212248172822552058873808624790257976700002282801624968602434193977212019052686200242147096747495352424216264626901239039167756737921382459451548310624530235880089411574249850446776957835580666622788608207455695871714642641268249291559220890837333117371841818643946433897883762235261560580852511185555341250444496913947019),
  (7, 29910152828314818222317569350523649611807484866363061683121365891002821798365643471742236250411751242967363854550510719805904986875306765312679245249135205341744108334929106296738846149129777794896104751893935200085404349720203319697452932305891872450105455180609429510637890287848680802399127547592684031871054851049951177673454853140681352817063846999921573794418555340539379729593259633263717696846954724947343159941464033278134155322565145581567597005453690496959114266529827610133948563518995542917959115429572869205087438503105731555626085867797997665250723050466133976462698620415699006746068743578195843343018983843205974459428912786784636711845990151120471806543145190741597351692810212057711908340248060858979304899872693054747432194656432823273542493215389540071425055938229518727190275750392762281883557245123941427070860324550674362795024727260217435499689498065409283829638796221515564238294185486449127437788572263816297076726404564510202812069628773173509142696992950299516627639301061398698187234733698662235914286752363329302530744377671379807570533870216886959151596016219613066284951549243776792607220566752151606489995404328003218244835737991863605862345061395859767163132414723248141043994565106115175641618623299626599297433192794192285335822337825962438491769645561515097595686745737894220128465242417685758342472322522398330298333229758862395530207296009240184276010230902076479089343689800295512290160366804705338656786173441925300844073276874851078226583899),
  (8, 3320694034046490830792788618352713055167532721131790243021717935216153848070707970465150439149576741439679051127531105385583024514806652139117582144262743062435114805724915064181653533173963565033287208749534212697628408536046162716458297588740563055114044067084770789724508135612968808323422378768088736603357149539961867716292826831165010669521175327792288503990213132566919603451112924736811146224075107390798042065687470988040397654763865053687579457131272359824711277529099602544978936255891377262892593483610133197317809062838526377513544622354626625846292649672474612557112837073341410515028930417705680414166905034587437197480751727030331926728131458413696031458819733313090848839070965527942701517519237990928248447168706482729597724048054257780245306565905074101589950491460691183011952955532928657738604432980876405780971591884030351515174079588296848034539971259968217360650119174205876340742245935574319011624672872532125938938520229164257653736541854241870577153472242153142232268716566180580285456571809448329215592587520812470971210944196773825296911499810351180717406580857526529719664510542312111883566443155805299380281300326005313714677233852143446556887279822352793755519758638795967799206327136291283997445178176102214369976035774159958675950180040733144906740284664417217422412027730024346089556235499262618877015309950955747881980894060188488197620225335100740882633862970550474096751986989598039531600544397346198831179742023571974172706721065),
  (9, 368671097428800531320226661721977758816007245708605067791507490563877448173287441490409504206911365555952281885873660071004100760437328433777885355780719482993740382674250060242787115857362194474609013266755943862229787568888193380414330756409619971045736289552575214554175031198439710574444169278590742877712299845320646862532204434599957973683621455093120309750647417217366512872257920531390760841981756628251043914220603803947361236503450722913237135326149046979249589696750388709189229336427673736091274996782814824195094992249719289722144977445418840365640715845083637184584158456776727610381371259587862897602738647482612243081150641714068631300547088362476564904035610371411311628730641452955247699774446700694933125181703357086810422914785663453835175788355141629072955067670006930858642513670816558445580126899354272749502466215024684912267662700984719457897548242834086359514767460200209726494560447207229513542859754903920120299324720325649974522707587746161010780372786069928978904148798999317873966580836348927486010818772113178744048013922282323821085592069364868620890640465020305691370269264322883640250298567306630997126873949571724122420786823990637658772033521207438749553448918192437191789307995141718487192914566082012860933756647280528567888968475626538180443989763129032073595707783634975793513213549072448180870507318621151494316650367175966822469657866798802691231779236860376863203016656027195317918482494503019960914517882646),
  (10, 40930714087927869839792134523334983111198775519291034074188250287282536474063592445472526316287016973744204083138071855852324705309067502254403753767588667655112953122548142852775389750315215228694155998518493950991657689285418240167572307576195897010433309931862224057461111659077491806085121659307762040670686226087121235842869952326057211698231592122212453260870758910679624617252372390673405093906218235960797082098117516840414391199704038694444323023951986748519792335881993662248715597099266021007410442853792756267582996471090438475275982970804515877554309959971816333344403033486972055585858682967599675173479961407819987315853742705814414393266874410412699536902582139342866754808740898158886134502948051038787938302932296284676374810683270705639633189982256226033036646557717736190228506255044085603310738025031691594398927802396918729939726345406380182288630785322119123032617041037844835320091438960127503373439515467185444430981531269564127820579358031137553758801521399665127364882149447269615274197882014391844890191826482755950223382273415690498986540054341891102139738236712028470409832092234804366127697315859532892087062027191793337235324313584846824146018701622613302454491907904097362689141041018637725627319553488663407381691271656054173609804863703725449149327767180744444325993695388382107415907366294938198663822180621268136400812793308034544320231406808065957706866194852416456232040823320449422657105006490053),
  (11, 4544221986190151666469909766174624137051389765284466712466687631119349711308438238418265110052421830467263835365198483693889091794150900897273717360056850890341168682214571966107480458947857379323693250376290914050535989936277654482121068844006374617365205662891765436137020649947458625161250523370531663541150746540426445827242147494029216072835045896901562952226028153025648682418082423100759355312336635809323163060434488632183862501567136848124428981132752598027322719180650981426453245914387907302225743268378952017100980192405704458678066018514733125477106770878403736095246504028513303708202579982567366239284747881247114693597135558580867044126492769170442753573378220561549956827238484505874354526351786653383308082741602237574748074327328251793849161271261177142345062256001426201400863613771733694151684901107557782190659258997570842195990587649535693892395873974225766469412123873448212411342890955629193203556735209681491851568459772554783101045140650103770961168516333229541539906103752943581149623434521659599323008107460999232670833831682360425104231336996963131204687982756424661987598709205047591592981785463598655210222897632082047212468397188971134714066904606362272955546635342069096228781179585281978599248202385556546992266505858568831233551090068782162157918260032595971538983801711282515815791642776257471464967153861133065020256799957719386825116591026745444062184934527089235046627772677591197),
  (12, 504510002605393749904763119726246357163540206676066217110868607544842825756706854289194859682544755914361645168174792891939256264717315105733361394960265082252514386819466850185259301200782312005548204958277677112314534192000670827142593168750165772897909695898244415078670081097455535842384857364439556915111134356776512352711648252040325665476806700673051643300179515536728947874412016219790071046336598845591978100544565418508597015968723984184301401632436690156292492862971907220889336634701339732541231800545565187635727174716619348936502127974111697504664466093252057869286086456964934415870649765556183723113747754841410892062141178812268835156542210345702477787178021989887748107761637670461099842294483188970098928343554406583866679085951400524069836341126633167691603632047085442424858248951672892970980802324698730027097843202847152026568833889406393947286280747733962941480603729541362045549024400899949368089016569622501818562871625517914512169276083316924699338284680495734820624358238540562192458517666961030944217882382898347286268275936608717257267741464860468904022666980362971052919303664874713170389992871793777609416882250632462148548473909271090434734757960843375740368614451115482898061211403407878809752667683513779614042713878788276600183642894336019976237680663642556014911814052457674720994358297590813662143125773566905889739560317468732345317152900807042661644852319491259680),
  (13, 56011862131721443971541225885186474875784523272213939183431007067330006756077194607982677135023600901056417794669142786052561112407373566578152344792733977663208350296174869840224883065219491781499497970060925459164322390937192551182753661734414746777493051119162105106029872831757125288203300977963400945838527385681289870126750608298157103451263217435575250727611619787127699173944603297214038811821115587013300989720312050858368506381571737696064518535939431940937338929495918696238432590490917608543134076801818463815259171502021344708198473064400059312485435307832542284363189456120696299417291050359426423901099868983046339306952000790734017269347668757442049966529578907620401221642583289904263058945924536057560606984984181640876629101932968285322845505452443051828736568716048437149105447008998222565248396373245981045176330660699288761640022938036604864096232631514699815821111801415854909312824164034125059248951538482574886138458953443811512563554096301180118048486543123623558360379257316578539137305752041456604455385552879003630172366399987558768240050485605034041405554150291568424359091046983671899702459912861399918616615141401323703602473610339281155771655416435994441462417530785536466336401381412091341010127629397093813414225074377934283776921443714049898570632584134431581686666646750640504636072764008456464006769605355049250107835032294277917263430485901882188362),
  (14, 6218565896067905280551703959118341252040128649845719545937621674889795143775010201016285722680901969058113587436008556802698259194520838944194514556573704793302565446694417016529122899605330215582060965912675859475496153042235019473579479015753845973194476298974312564909549361751148404338057551064699543811052742826979386798693671261276310013053291027705758326416041809158977030057595406286023845551159100010141625787708722828130412090282021576185082915208781921534461974988975978259827378593886278818116214110355015898096042775894228152470708408698656297940272694836588732918456826642834870028760280027693216209253589376227986867775411490412035216132927185391336007496985483010650696830625132330895217313955314812858622830763147737813251928989637941536911588270823214959070769720950608606821722224623945609125185075022511216427231070917746464855360841342279065795219551868154030593428895356731380983954372000442944473225576776250676878139833408145300667900908830730092265294982938877104167864169579481508666953339509135321462164829764598804903434679524534977558797066461692687300306934735235377520201093313131414770581750251789872466130716721474101878709407513049159529853402885694685857608235068715996571545852157671071599488624236990717894575377552361182879555083599328709544728340291926433812336001544458030494851322584808945732838949980570346583786067422611947634789),
  (15, 690399503569773283122295257398210430543017850866857637141638683814173715292548454196370908295969410988513985844036741611825602319592627275525190689303997938677592905655533709629598019730813854978410546501198374285449564269230386550515429451623064793789952964922663831672979548166547184590085870359315846295068297647964906575623659246415410398971983849710712607421515917161985139376295954991012290831570823963680561704958290980940658770755887239927785228500756176689921807316197944880676850210919345508089788961141063276983878442147406749453319206544645471699397930685127941564837374152243559631730598409261449061236449032352648021790269360549348480117812309015222227271884334528495887999222933083614671850605471817049783612514673028544669593650372068471733728822422332208243814368956038284882495686788422815239001974876959065141763594321792233336316930631933203354027222692269146988161440500621186573113706002449979222220837563098661810499894285055909341058501598907934832480571929898029697646086783251489139173503073873966219524227557926484327402081107665973741246927025985080293107273387764353379613900680504751146842511534930618996849269666053840243555338366359994877084870253367609200753172995536660502992705889579358838664306581807482799751690238517976001469467808742169981454800558572901043526209037220949960721629965286971313518392029754063308817126),
  (16, 76649742530447502763001053868913183710226604871007963733040323453787709004797084438090538227270998287932388335853928168401770948995870194916875308169006748877502918076697871487015687647201325955297648282926319620240741216024876923607384311940407978135714651136552508438618313758820575938970458684544011549893893167814696811332227817404268489915060366204726370679096981809254676768277650278493566673392874460334062780322667261888887681088431035008142245070175907469734163851964088933302003886469563206935579431564430406143730714027247193442219271795676809807436693373494458415508074129014983877982382840702136946297858235301510623277539898355287567489006161619121317432002052956368944202676246445432027342398044147749468462094964645604337139749856444820713075724801844184282243261395316506486717280769751207891992118099581180978279582183900453733219881086217544507871896286126772207730265256534837005800314140353299144502401602316903162972350493490510506149449135350082877136205123345304757149330798706292222492581457949440723325015314978837952151163119411694974392014735918671159406859344881307100353671567775083956999367395404257164516588361284659222835346536256378504389154871726176077198107166264950027057349053027272209813217276613301364821928973308327150273915651689216222292663225614430450517760570180846009626945156163595003593057711),
  (17, 8509830898883744891399191872865679101090450373425647712466013131528682685516708376004665221947302059486264427522819822550457232797503728140345038198611372070677636924718712614120023171827582517054387606683251101120953635421470090116798232477100030538594375338561962723544245210631458247392330950605222927465542179974142060253170960366197511390003077144747396650624133182958423434689397986982338400828393645455345305552689026983140275553461994450940231841716066394156747216807787820569261046351342021933468076831057738813448154158125406829358815805694124953457978151465877211952561951383466138952152338231908958664036405112848720689010497450562338924672880779888456486870355110943848393867707515982226145941853667767787417271403434435091345746288508305146290063413066627602295193807915396290546228274594976828116203259055111906132868042156784764420307615971314461658439083644907643078863644424318319664585086375011471020676151380928640418335042754215902024052867140132760745504030454382559787747291400186523128268029014638975716365323119488510750233899796404702280459190366757601664610368776455137025309592979215012974602833793274241422281765192952533133836572430952610840195311294389178619475868465605646891367758799203775681244776710364735986969466320947445230276908878156908618157257135173911969518307157267975418857485932),
  (18, 944781019961348516650146413058344787759415301662703577417119451520410911603542114971709994016267009022074923827412907564498979448626830962839542876680618666084347957448766495848052771563023654306812796022890091889767835396133333207778552246336324708053880520553580207660051985781864090629625015752404707514183386725355120502684468269695059146541402353287596551378629368334409529657082915341138041065233905557523410030702733581802474126672896622986667507289938242556337699345587069210289707904066378542880773820152619614336008425383073596079708188242207457887987366738693447192024733839194730382051029177217764202487075276554495501487665811512749718443308683307812657566285419784305775525795805323215351725046842872037446945493311867185544890529200857875874310999714693579687004625784827698363025627821960306189007834083357575530235605052073855738002520090732528877666322931832577581196033299667975611278466084159847040265349232810183660746110835422193859662728241441906899529575415818937383583066244014177294041811280977937157177716326980273626677457361358153167830348462488387383945584307679749499841061577505891936997808713427049804685259216949912322536930915620681147279126826053076692146301575489500282425795244155872864964198299208736793313274788745236472917528079056794317757878471009042912988094138349),
  (19, 104891764159001026444635063857024334455758428307390636539505944323612504355288374110400332513840780692265790774779029208589978535438804623355445365446679902786130639139638487489180847781380987435085159497963832832448008118233145309476804039983444410368374647506713956477053148886589595625196328012084806557135593470038490374507277070668728152916813505579995192289336859776602695273890590440483405877489518860240937749370371333525724213116876541235660326361491414697796603967647245781354799250432292099281713009309345693626214885887980974964621737472367387385614708419190768715202091036465011966838583249046226636630064829519879207116428510178540810908945056128242381834038871329213547887621454417964463089442106361081125827038967637091876158224234773255082482086582502235226369058156009587053237448779463513594830567026700567717958819047503687209574724168064267808166164829081753981947002748118934935682567975867174387935840219985630300806712875144830050571861971037742348176356925419789336195284517859265859697665082768400970228951699256330987250609541080259770531717901022137179962277491685250571236730256973677434572307444077916112714168880907193903649532583894981069965003243674499374951029072330684169771185292442113095092671527379851454996056185899010583213329333789650614343471397899263),
  (20, 11645325103308039141965694822624778226975842927258255801301044890695611175865632429394892036740930972496475068709053031279349932660410762659717544722426454282923255257405284695245178855893183262448818645171254472931514625644285838414597685125487234872397671329248058950362001596926115116754503900868400578009859936690391940487633910739677112820508197983540328427071613633963177447385910155859905044536510851164131704497858865490957496314119360403249672875757385741769972099018096169445701661706816604450437972209624140027339134888029323322613335196562625906121215794163580215127737623631726809393676208675419118876638485399378234159949883444704121729563315935393295720295686132134308893910797436778722293061148769791851589211380048367036809805430668318099290071775738842595583455631320738221429886751828483681840132145407979033626743111776172590232585195732892032714947098705448199023696572760875615076721245588505200597993213704618497905752027431692245260541115477503841220221713353078892579938097507226607987882053818074017799100904768641761835716054259075135958145457448447922399612728015082193794557728855669987175401378791015386050487462839947478941781892473181624729197759954060966773977989583353795522502746913301738963455194464922403536663542645619529720253318004286225),
  (21, 1292890812885812518865925303017610611374431986897852706594222519959149277293860028820959055593061432684418870075259390526229959739908668000490909145702225816196632603796939964318675479962106707985863946375333806895684732892441617820449841155225111556467352160395373280606928506338991609289247201307981591219943673218021005405385043639536081356773692106195309563501212713965459122669406280250073575821223492608806968468151139710556891840248459240924696935415303950236785541606045759293985246153279615707104241372019962320791030611502860463665061317227377650042689124936258699361701831099778520898773249552633386261489719283726081043087224192527661773092983790785919735553386529205446074297471895343437424097023284778253842647389744073750873798371870819019906817820981398241968762879018622545418627508264132211251459994372721507326145862254900047892732461522601806031990384467271077141825849251709852547860366558131312964221959786622154636006887256774414161763256651237649971029219122806771793117514552800856110930735350172443566497682463664287490586132047588592260681779255180562770010707770483184023821933692753316578060960300254355597408292813153463866397449886264765662702234928223074165987298363358886547167379357558159922741502538788512105072006248668591547),
  (22, 143539715474404733705889854819591145110375328213198789152771183944068328401131648351777671081251216218213307225857791975612310699247848659390015811640924935069206898816654742093083022744612353473233384354050435857438571663629697363139593381930802353966158983163577831969281505901292974536487136839220002332339910444853440128443092447601387627568105560672225888156193438951925455051918312656220808493829160066574628618770270417092648515113127039835006198443829197391211572133063261450287508617196623827383270438878089280780791362745591379169544924142369926853344758809280747480278870848622603598347635490649402034334511901528346505283551135471740818512693563677591024575241389511872711385831929708995836049299590520788151060040317676973798939507575330963106728614589010265087058859654392537667282740183055724346511516192167322902546465326187459400788131591333074394386527082326708581015005001052628437453970022620956230842981550121236157516111427887199849818328343807570046090423336361252063874066132923216234236089139570530444619006254873058941009581333552861046979301498101364046164145307291853747727390841275185374295790400617510990535993166908260338808931050830939176043834228221264404329747364750005775910134855458135457623895790091159242711),
  (23, 15936109640703622782016158927246829025755321506249798154772627594293997265686774145756235036019351432643702194529563040899227933594244494542644445831275317130486142137016023969920329819389633653108446017552677463926467817590735621571640275503919272745700158288296868738284834248526165015067298296935635522142332644984694829114422148015886374222111207218321475574544568401279213330067143328413279756091821188197960006201640917130268361775352377329090316629220971087775558091209296077541853652863823559896606233309688240962669063024191934724056630234031788068289137776888744417827105273733738290128663789286009071419329433418604899895984932260038614756486331191975455819805344197257639968564337753397098666391074091712296177339388105480857951711277410699768256349150307557790994128873700894516092401810676802144624276532802369999766019983228123189188751016198172133635740717336626509564026508520929286444112430369482099758175301987378317308823554440613266795297134415795421187256210433177869437888287798646303277194422817838758266377390965800150210237843877136284443775991839044151442805912783354690460059280051689334564663204638003592953964555114371674754352768227434250457493465201209180672293809132471493521281579597997420329598),
  (24, 1769263584707969795043684789011596691218291678077844922853110262568035498843923819755761670451511212833997359122077407970297855998430332248806192864180551738591515097574275348432214358284853804415147055588953018406160714423864299141211801266179947325140030745285613432964637586433338240558620324171978076938243721554967187467201692522021676983663092778645463602556855761940730113453654994511725530841319921727766085559269401341969006121114788843826755385775279215354752179641993180302577773448722001747231499531325926537097256569581223643592762451605115902818300927476293134861043059710037574374843673851223659515783294034221312531973849508689019516120030111459199195790062116603698837742959707769162724237901971230048514944215443118030496131846955544351725702782766070739552447629712059784859872279473221343690255961691500203806066554738320201776413038601695462407641004727445788975302137165485667726578895621260075534902897188005245460849487168975352159442687260057298851904038056120796197263654332182167270052666450086482176591359678001617549245766001018200414407672611363830148082006656865930068682874079914679590593111095906042963819902850104162116267843389376996925527071603008768297323642950551517887476936),
  (25, 196427716826043016680172586806568063853273929239242004384566469184181363245812342447179368608321061651787606865238704444110468400991954942058822741896810281402760148509795356138387020244685830595168446321383006870435800995757081056024068831904724558318023890200496564681626881111123325776594954499416916922670625013445124768061996676456158026440618229474238493795236361026458329974387734903888203947443578536452249144976418693554742880814584771504089582917687925008903484302033827462987597537166103854011743912175121385479278904548095534650473004317762294553446102973522306691863362342775418805004024338728565181155870343407563774905345333997398183521956546908925915940608509613421780217566295609243787468437157489444437251198474184245607605809622147174271078088577033958835023788056251453889090482522466209141856181222408529465988362152053889276728589195645292862514563650556424108431641447885693796040770058171404480968268648042642827744458435340951417260726623231744259529031342994726592435093400474306459381622823024733502918949029989038381545994233271267704914873411360163462591086769122491989995446801709996049030078166042664025213532575886648967285521444371324173182660471113043826573945917),
  (26, 21807857389924383151098457910938265522697469215640137024237352988337121066509889211847901611017523979124911020726842528110382818864586277658605830608314957033753357091502738681998422268326284122088387415578609423667583233304325269413534600331342079072437292578820970704174468154453241291419025402275951479954988576949171193110541937846756911267752780591343611425170276492192740053419339809449130162205848683272698134270063596310080016211711603624543239511691309432427356828068961259014716493049257955102450283217770436310712153619825125216243727758271246597931589490813746294794172729590331158418571368266708746804481466829208882921188781657712560000549292090858660271091248802737335182898791564936719886103735642465439457160250983365620020727023212649651151470996429479448997243124983040216053482405757355202685450573221225032629785350933491723001154203571766923540318437751333371979598497207051021715625060297863275393294302646055660349292975743462849170196956731720868216425117486884773762444278761463758438860951642163437707036007442000614114744291277334770484139074881364827991751930075407818282188218058859510704176430381427188627353305653774845112963791571227210871999534003),
  (27, 2421158539154513531810602852173601456993464569971611188675262732978781289506950212222106115944397948037094215746849846573035169418784926961645366455364675847888571177093273967226434829372761488476965388877996036508770394672493052540194924035346342560076038970166104810449231549446086337450088997975446488489969519478462512607504004705059173447159471294673144355024456391850433351131419850114901403056916969439545609214213568229875547568000362694539021481899306880946533255848074906335830582644257298303330300815853258604529443580026837619760224743105140166768107871167020792890887779394379784905715275116895236981419873068828864766093306761418712178927670137964261625705030164203896016113743002596644297381000506508804276760840794546538546692135226531091290261116861067757253543957874207267936188270344525276160898522234431913408788251730936864267514610666959159394100254585688433739207019646736343308072535607341360070537686870494163034728694219872173188462437411615508891971972547349434034592848340855698021835163638092456261912273885473817546291914518469133938775116730496217757450625119795386656925031975637938992126489193024263505822515537148170244299221406320),
  (28, 268802595641873394298595522289546324492036785116444615927667979515112485779129925655371967842948403152242553808034332650372411030749039988888003351845014901538826001392420656209294282434907224120907044188824223378413961796118012416309262330167813253365495122103097375647716049899495570394538121157189491117644912521574461114899402792063367130123284572404492668094205853026357930431604701949707323668067318920922570796785760938079654527014207269512431835895431099489917686048544847465691226705611970208592438759276677687121501718407301526900941345072499127976822411620031882694640863078686757283347715500359512747354477094069598504739690252938051690852881803830669545861480344565048392593773489203633131893772488851888697451867641724597944817523210466961666870427478466381104004926190454078092605834529581878198619397016399231094348436336183583241046343950081144272527438888216012669325514487433561299110981406023800699589846497149085908367819344916301257882069857860242244875714175806798551406003061560456296482600192061766003311499828528853345531077977031826270675946179159303635416295025098842040760558767311732312621592341360245225076347497061854),
  (29, 29843083076265814054147199933935768459754273034258006778834887915311520601096535944991519751251272843545816998698520645078339346020021819955045298045533050335264532731549685817191204545247764859195122195435170192797457822704327424903505454008605943370180899298005585603470639973563006026431000550956070202828852769990955784796259967647023607938429712792905663206381850774375396299680985606260873051608977824266755169074983475452911471590301268412128305279840206372168993112072335125207012625201674037221741085319747722973683899580203811390051536055777055042879598181508835265231037376238849138415711828548745953216858386824076703990023211226891766275919143695623276549471008391839919885738713634715448619330908858140454495240849712376806508669277628422435000276259321162225260221056471061870415752812565945271631745376651381976583614908882724854785586810735883528403544379711198800600034402508591873299459661918714301211927613115182779268989691618854189191378863788150642144100557803419005319967999690441226399542955980461507025332433335964403513514885532763464057726935933866423919976817002083439859640513569405478121655215114795470),
  (30, 3313247795707165327855037155073222139262586808856393047899012484526384336846642313933077844817639872448491122758187437677783665048727648189679817263889943827511134514413014364419130480282378854361438302360017859360114858303028853570405038332214558246555757758722913841994488490079518564094374139079154395795973361281800493837874640195797893753407693839031018879379902972101600988583778929081988035188930144444214317309136794193248517669292548638818408122102022336471459759314844460983400697827209189398914591600971137044785603000194109505125511313836974976875102814503253801128325086631529586808951143809627680819343860651062202686106208563495019586842746103309207985832872439457572480849419122870849721084607524868664177068497561483999357779781811174936105382228129427491267264542151170810456771309483933646868775093821889096840826090669029857651826391379910340299137820860029564963965787668608180662033126143847727731622849237469989773213664771407941441191034675175494633308559278426690119129556118477496007523289249801232464426444438632173944159988282531390338565833616294669167956625787414855156062577959415769225),
  (31, 367844399245896052872197617684395031864083451061881152851155226597310210514856452219373904252917643462006596029307389270438704941905898993739496420067640130843044250645611899154371609184570105958185248129070911043501094216501522826726498778358197208770309655736807490725839917838502001916740491833162800324312413405822032168649398792044676702630065905068056599689168801860677978815811280548353775011048863945651479280313737876596803809751483884534438860689977867337524914497609919308421061189346396738592510176986373984102239751356321938845024901254769295429722088172920262914863906937626821394197448027193639646669395270551727102602028444659827197346033552388930275129343919809749390975424288980729934762921551569366916754559345209380568239148207166853369710989599112009000319082620937103570408424227155308009492958395601316703396541221970074298939633967047959995721560780162831394199500319814718091898852361377497540886792237706539584843626452395170048186950486922253899489896866334635524577717029831253513357213877711037918367888870862985102732007546837273440385239409452356971527721937663509988649),
  (32, 40838932114735569259719014700862673293845599675693844625251854383192353130285321009652983537234140913518370957477424513054512839980005852051858037946554295719883859035773448021290245071706075346007964995826151836302763575544191730124735070977311710480413395181276103840792032765328142632186939291145283501623286872362848103669669770958510977846733900021402714263280040012486652426936771310081367960522934065153613724583184827586092633169973075666443090424348867778329121438166473561157539018231261476025278529544616606903477328237416015312391302535304934471882895546573660285260913847674911530983478270184288372912859440735921067268135533442197284981497569456446749952694675097180215716099141393299880322104223191920927956228722528099288241100364134730971303499968057133660209081134176303737500728017047712595014460051999644591774090370131853711984833110547838599627959015716192138781409449479169204027747914289747923252607364753238007575820464516625203351245924153071857310805579646212257879155441825259814338901090345214115029988254124343614640257247120668972512060323894715834744929),
  (33, 4534032271869767639462010895133005962917711931002916823891612620997742370896286113242761568113228371816381667732232020060337483141394332303422808071915287589720144797747675978603126652036104845137168392242977290243813313327995536224866622068146859863721753277630012463212948218785299757801122673823196651744686449647493654901571576267167780847360902854426741808455389528519335786506280987721961252193635430306585794559073206373317642090133882421285304888878150755451935167814284193618715754015507663791808916420326502858766139008718675441841889349342509271865571052508875963823180697038894130139074731597990534682630454195390226802759386348609887009981888981064844845575129169425686994536870833305347405438539683417787634200110199911293965981334086965611709224337999528486351491768022256773632466019974182947064043280589955144407301573991812604848704485867659545661641033905980154808556076192559521708161574163221347775332446782798059163597372964970028064064767589192188352866259944658909264263686232260430804226708333299418971460153055032775856277176974560282006711017),
  (34, 503378702442027361244950815151641013898904472874664770212787590889984769293289316473801915344000583996124082693485006467537233415926085852027721741554387819449631576901872703967179186292581080667285613987545055341054752767025368758439027625102008776970484454468717375506660315571092243999312712729721319324933195172527679211210514766191960275627234385902308523308990772381107895779924315287269628066149630052415448800663230467933599736451737568304713415299568252585477800328827590944253618397486404730318444281010769315219614808486998849955605161809349005315332219960838196543202744236406313350413426131740788003224404495699385292084226738950968674501973031180026840831945096210537810077666272809155009341422608206329443394147845969801047144880485890661741546888956302257157195719808152238808052667048233206466684421873573606921189248579746286266428516076289003645908095181548197376803814700779341372173761819271908022238750684253928251740955613020543300640115418829826719233251636084365488391575812715584806640540281341774160809811986646789640284137717),
  (35, 55886262558619568105497076752380047891399904110515434146929165439200288482557007452606440464710593709267208033016755894024546608293728798422197441635855251383801644256214535908847090278435725681959706353056432116387041550332972625951565953352898080133173866409576282724536672164115963350168041664628598183469711933264843696554089569478548702070766008389084054652534527540230642480373737523781378121661935937887954173533812462045832031713434692612520787802347612655672603172878473017905987388262240351146591451388172565336573067114485256082684799942254162312508371314835825718268699592334621170604834577007828988751531094325036516386762408514447873582254435450101023565705987555728512555787652989626597301313713216272683909963328140743551554613339872682201900377307030023899841520142017995053942963379865854901681647205174755367721999302606793747911912423920259777837624639234821041459733643183015537483759260087383457858464091070984090918250867921038896979778590081977259565726315479280061682327084831693787777732853070742238368239246680),
  (36, 6204621544959313282171556134992364933590388955848932161609280433682227896937235252932344290976965238422255153216901470217542924621900523712029224391040433637518678829011461644599835635385192728460272804612543029236072697168325047317570311275337501203175347697482262656202749863350163483836138858422287870432516083790428049736712447090200629153419269776795038738791604610110209881060732470241660091748723388102735762287240365121834694182830005633034763457895296613985050704166428388730347322687692244384306923493472155367169797563605746865627834367993756708381861272298411358263284872579413954419816037511974284764600134796096895129793141509228080930227143076909639750756268645719140884127941210650923931590478778821812651364084765861007279937227353287244412652336875429160143599333996307353539318282337835605292253478040117034790839366088166947369706016295928886502777939407156487074807113758645818427126182492085989387252391558292632925363442695155897939853613371744342031863531647057802493597203377043701235561311174339),
  (37, 688851369851778917563843593882392778981948092627569938839676219907407544108327086505047680880971535980864079045299864004440997497817563604864539866407497717636086059231038733072508881925733270497218570560626026689609705456714660703398477252762078888163807356463731606482279997327464133043247869219690924447574402036395990647528948311402697021671185564980965806699550249439359907067756290242144148404031786196240856341398931057033444936020563937360323601024929815669988976902231254203873227511041163063156299863542143716801407180931004109858141261386829019157627547921068363681876644908849572225568049831741961294877729147806917614549727343048427880343475399617789929256823479165285212661355332763868215065939844279637074663406163215000088380183942525530651203427222195984634365184572976085647567007239159137425247880625611212517515725173923964195397345863933362707429219682615393742936568409735992131804965208222740987873587431348726585339675139796608233760196524794187420261061990495485673107334888994202),
  (38, 76477865132974948023442821012349245077468587038429197681991796785704045926895050171000841297548333810142765664680963323986639816883363815043953938641999530656847493092204944236955460020581914256186830300384386884245759640387601216385679295791757519316881709139172990328117942434949042736160532077872158783548297858336161946376402430590524704890823794965385304184951625901103127645697036442613814020104221857742149909491614302096459169021516520918416672685293504340418249393133852116990375663269574144030590958766705645962236989552317650806214115391116522663610417454671691707899835432999339063762003613484872245441714038866332301545902260952284033413220827334728260604339916569823934714382697716025657023816600957406475734016336575814490141783802507056024919275413284644372134338169647046738643460045124060670943122821805361290928406690602032231019171684886416926127505275025044000067833957431774971841914693706216966104692501730571694921084449761298100913574447664217441458324816658354086),
  (39, 8490748674540532734767263446393174348600683212432638216444857932145132423434383696356471117668336015652740133653657188581601973684480963405555519013234649121071863984088813788195792102681637076093683759347796468006049750644509385043876741505492732293469458283624724382930010055807734599649475142607516434741062117377659900677281496122074495638557533142118329547656563574195751204858868073998135373464137587260693015596546945913718882234717908484900728200892656260714056166576877948304201353992803773694878437522771845419350082992139127743368055233324478380983094145952168883193601900070823109225624309866593094851199796823484707369193593265703297355970382959225333264373200820322333729635898143189796503439009686456931825538702170593982079904362087689975973183655076627570164365203697243217325252542773814332253977943091553177977119234665850718510532789067259377119664878800977286984699864594713736905535258089701053132192375876811792039644837928503853520306228719493385192),
  (40, 942662468180099613991205575339009088272755243437261689812929118639105815078928663645696842560767786844397773443243583536968696907841021889637037806463677641725379386275826098957518055973481111140200036770202819243670650713491984930027363940189563996517107386560550466669996203683796221737823019217203320238024272874115717062954971126851341431012672467562969784207936902538929250881351914816053727080043657362940891330909803815591497322179398047433560411848736549536472497089662291917087631881325649302290969110536861150917939464989236054452233134229006124577512722531920276761982525088048888410093974851733505562808244131603358798119879302686760206375503178810232074981635539223777269819751598049942976214622728654827075700201031801106674644481270354005484814542825027745526917971875524775586913515084783379853297937926019952001050848578646595220736777770856121196837113085806930753942933263463745389154135002133469351567145305274130165408863475851352124968),
  (41, 104656557583670182186253135319330337565868409521169820442946670279127155683189194234931560183878677829091352810079789967021370421631454483334614386636504996512335584136514119704697495757189486240480145720687255114351068491721407889981204311866079823715760174551230079903998990240670718510068085684050538428997459056397478062410238679128793922001142760272968447089368949972205918679500060067393926811448639231743728343860286379609095443571146872473964858983732103921711239592959509429351953646922852911133251023148144521635649221009864152138978809099383665380085071757207555490436556468895511550344471547367448465940442143955704674807767708097599127348513970485585877097641101233513606781941547404557778020556432026149689255315032156509617660353141979975449780820930749483116225842778915754127043572678646683673779900729063387633072097628741967628949550999460774502282165735967249229104046312203293667026105092186740158934966655275766447681568),
  (42, 11619211991435070705752324071834418900880706623143372142948169982893955032241686644642983486386742009125329100264007430430020386450207124082273896048918413393252144824294861040465985183801762093204047658963152307604098222670653265590820795883045451092930710720479863013778062497458587529032813337473022750506546993233599878179763893818163525624051814359878053223676891065027520489709715218416704643191399417461423733464710469130001397378084471000501378936146929899003944630109253984664502948367172744947315645663630372688361846412393364579557966118575761063394838473798594748309044621726389523102094954022551058265889050237549402325582583538202016326583107910253038800573541264643998291130067726611403144611210877168839770565266133023776542562245224907731602859757796156755014815198778654818746148283604366487635310676163319434757921024118361985412491200494658705935323768770550466301968728657694279690270196184000562658024325),
  (43, 1289991668012015748136031354345576102882787139314523611867148347076341622268476908332456782606894612692664528186778230839649644453283154221009423848479467734794220641223529510089733754519560154265161339279170725763501286237430628962257129340661877186164003619252356153558534466495423783849125475958576085185076768368624349121233157039612826802405168896774814642164989133248760894740188802732576786689096720114276048907341841607338023149175689977762729965337616682009461220448647651463106152099250387773183079553290111717399588136782143931320263063239999916370560967185615438113999668881909043879535254996982146553622178260290213568917405398581766673117514229138509262360901199584109052136510013627543191937771152811998993319835161883129483070987435090107279730429740417090886615917317668901406921353423297836206744904877846045215789767218854132599237842220988787415329446398764445712491062564349100128873443114),
  (44, 143217845159025943221295920251381811186812440380658271812831064442262163644889476918170486255715086681896812898877222429102067206813247710327140928857567735858649632054558041084222608082255482749939227888266975540457537853540322170979395846656344727686116432377666540440104808575846087676330203228167264310854144949979395513301808771083820134562201375922510336878472120924551376389073688023701738210121411345268447176466158935903020988040107547283334660908789690129802945395111404971515048509092121966933097364842473581383642892443414761690051490456635563004019277177171952704831111700597911875454443160493586080725161190266448581477940040789655615702086878898455577954633448563560461600672570964408845032651880815714090031382001944938943691314265220164951488517737998276555090911649316601621349190480396980320029234927329860410707877959182812001104916853094083086931810727590584324724930613576),
  (45, 15900374921180026272847883409042688269865892288616105321769638792517008154993371342424697131999806921138318575971217062008986816978835555973839221078399130844828285914883733157719325833872097077384295325719673488195237407914687487085798437040417341115306059939090234454739092616970439771639913601805129855968600453604399796964131839644010588329590628482200263438847223269999490391290815024039546049862750265225587377992020810115305258604132377611020565512485681922975684974773625167544623781877649265892749469725331359295072328127919827114872321649657864722124222711707582082908414894088611502670684507271288398470240951756303491381105254818953783982386481286127516201353704914356048433897567666063140726511826013614879789132220238243851159386793525098745195413580837856498313058588382295480990141324703454196915550058157859398261058578474883046810383043878526813319318963004586),
  (46, 1765296233768374811063084654762785709582345362082019254021248637325985000287928138392345483177600671074854597896813250207773967440516592118407552363580095146258099624184299524707005245192088470391723434278662247891818954012550618868270139316796788058797168634522744788096492758293263958844950170509883351078979420341495839115833908045956094475527064925390059912091557666381123345314251167260669194370686966039325045121901558077952193068712658264776026211172929180148773607989268088574999905725302664153677804877288319540140129128478277129960006396202428589678547817507345878221367387562989382283927166302711302614492525949249286972399127584656773395742288015906200784610070909518748678684456502160326338082932403845486343168591215437013439272717632645935112961448814245523413750277176337838760479974507100691952064142272250373604055872082837120285053031714975876),
  (47, 195987252401180465024623861307145013331159905510971253758585892289424614906207142843237936355519284713805962842552958234529388068172443605733230311391916632551691050912326457257221168278212676430439189589523244839132042193726148213689362404568868013732168726771760414936983132567312642636306940226174378445418628654655563792957892000290967576001351318817209325639466510470203419904557151549916517133651268261288535910465993733320553318689010053143593467568670703225783904523278648792637502348425681558364097857463565888876767516777375610798596479349763657480860501415569219673866386053577401654529152720674243870636849470818947790585412244850092230677070788131689735263092990082635358464913353384387257355223151706213486591964268097988853947224006529673335528490964821361333365198120026526783803266977099923726268272894429120656729403860802374840),
  (48, 21758956014734982557836984347600838718873550810530466421889800783161144364709001288344878700222613689852705072369012659315359347357295060031976753085080118835263665355434710213951811782092841706080204503415287339080045637550125468012493983377780819972858468449650951603035106511564728022121677061848602001038072872870966956015371191410572439335313327984187605491054006064918747929250649095499400818406441754509131916542767052976155842252671120093096415503861726800270471504441879167185089796081389907718765407553824971619871426278418651417631874590442728953563454165651305193569149855545510234591952243421520267545515006651338810330146315848135303170710772097657605496848593691188315882472528902161734053303760169407570235011948057883832586612692800748657440974526909293449605877943042482646973487481430081762014126389683690532372),
  (49, 2415729395952720956226791491656776883709056515679822006283121639040551809445878480132889001997793848599597376671456079471542574881314135464223630128731724259852063073748322421657761436026830443863456419408195349397770284545878050659029258887326775697270253275599598015264461288983702898987434683524976447053862185166698675028161475011518446556535629376776269075467058004479965777756122616462034358045547406566568739207047208361605811545951184873751839301811898679207007393972970616769277423788519762123550174045690827891063496405117797467014477212977412685280248302987608708472508929473495184999508568437773476039997885658464776499508924593561621850051432310355473485652471779913771828372440346415938269947734457646368504597756580812462314684452614037084251374650110400464593448820772103231065478088172866021305690),
  (50, 268199839665053225282375258992837095263112758356507604049836683728419629507242314418223761096381912838415281971233392551872418128201995320328124853153014806835244136211176510685660352688704681334513250457913025353222246419898608500542616008365484321598113500675222290525115530783468981544832867325328505423864147144990682504116180023087342069877638477337437034199183949617541125203192410646069378180407987513627273595962125333503454011073769936182397335765064761364572462654744707157098945433599655955356249673281706100188766395108819788098732854206813213461723704801641726025895448542718495158597667087657828009128570365966310112764720857015599336426913579812885920471945319681711073480403794169556586982679051250364022147686725964209554729928608859745175411035427685783201694244203006576280493180),
  (51, 29776163709046194268813858055702300137543874705917922100158744519333571808705573519819827997005119996376076577147984139092030110158351330575205416434450764805784745550877200241337729651840802436760391108118814819343679710471228730030460791500321044576511156860125658741883756790092991922074330268152823656671162484998279444293560189482346637802268552318553336937640300411299477100319882290178195667435676502888173610045099973521935081601299388616717077510020806303411038134124676308596351634003371093916611428406972617721345252230250153670403618637685388367802338554625664852569438431861014811385832320278327239793270157422178243729664000317075432531077669996742688082093124230659663477687316914363878998302230019393931371525854569627766545936875026845594396159128818000451246982469),
  (52, 3305818254661001796014577676465529948689886249460233628980620666999667433796507952968646235832232724664304761416531438956676934521203009018465697621364557332305464192636081416960599383550882196247364181735092562759782581690490903045809899519179294853038468884289375211351821063530957479587767870475496692896184169340807127197305714800744243667226365775439559053828412924762867787275384326145577971120980929699178844340718239721850804335163726370416113102598648908209147586060636910001356851404847890848452711993003565751608821082475306639916139144731581059242729066523046781939494137473055982775826380349788496608395281843500499952623250084639313513108503463451037766127763449486345193664416733043985637754223783364402176794013660698096179847331704927803105849655876),
  (53, 367019554182837499524508309890357295817974306634874213150446930554422988383024038687775196821667648105370276390346769965194655400186628904084619903574520484349676991370149843252828479414072498556104880827025716402581935604660088276551987436938719643259109017657750582978458327403828570304795509987568761698957654790177349978912097542368808986625187368346725624681373654521669498389960621898576268278715344839182358358736242631599785994043332433723499811725398309880307953733294117822603122911271537456415543803069548955265054320674805893377672212684883404079808765208594363851300783712002667858854102298273005471293791500604588671365977673602365014437049468166794903365055410465166975466351879271601417184042162744775250946731530242846475679262724987),
  (54, 40747355951062862591193165877688085724568895386653230737062586379667190997300929362610614191358490043514573646883200245620388748313926632466791504534019329171370455892797198810128209684822615646346373116228980082893645662481351180718806465105157305866006002803621225041334118485029385581041765056076180785098778771682173707787452842867406992554743953534954567811815940631719256159940456194323136345682439256462731737644033758831123042796434971689695407260896165389766552005367540221024626840761239514196621018883088127231865819702211685607917220989433274337675666138785647768282107897723462546448130977299250522133972285405603131536450455750144038780398957573081887556265775122092773655864811914606687632587009924664257676254737250618),
  (55, 4523865277121189054119750806058487189532758006023368058164475972966057762089353869502863761634781185472414092477464169124424434793707270043751475122577068268715749017010978926584846362644337476581543219180057825151532340997642788124939535793997994301559656727449129173458281908774989420652471681779925545068752139784416047652853969807024579135183201762651173903257699849991308033531665828906133239282737384944622941298860518987232879654976356058307906165138666351542873512480140028953797311069409387542816361228808663588284442797054273115956552076585387186621507946061986862211050180999999505549805235411986697630229611496163000776073014270009927742180254906582027829372076389000058672867245707763153104025638194462647),
  (56, 502249939076847378126219237478638048511102408144014560438472647468358752109859706242449222552415402851195631810685014157394635418149258707072345364579222221925530522665513382920410082058260726758397995282620443426829215702502751934809423598295838771717040855931726451462884120887995375994166575926011229020178787044327523565465007560422668633605486676155749099407006782286720328179217861061953626117570027613007469525082912056822263233203712583462149795474828092313701794975514707719325196128605210501437408706232686117115367846871871636631314981057911393655486757731065806600673612517058943904997420499517628075556015452861437178526348356610891765305191408651809462476479280095397348619323329094926127),
  (57, 55760944649926767120537792539715364667734971702238514556613289284893937546685913229335008690350605849443197839919254252283547369715560131776035830854201279967214962125152090826419110954226464250521154970596851481661484328901648344763839634095853875569280374230647125913468006479922386715869020803602854019786067759502242018585383925789742466440867065766581077698508243260533260455484358135198969679246688786915858500738976655580070174574380871895275612705122118369271152291695610182157090964789391236201013252843048617247083910054352565814882795277822875673354413084692389629699348945399420181620298052794657467061173079111737584804787491079950326190215250380220761800230421039220314274),
  (58, 6190708462302497704150279990859846487184166168801385132918187392455352527317418005528449970895953464307509062290167687896149624542397037143012802840704000125528507087747710390818793848037596707796324010075690173304959856938714473977417933846706162890390846472129100371858992833037828921280333646087474626259991993537672038798980591162618705818561217269894996684691160803893973593612899849230474922853625857783860478377506963267296975532115703804925521331951465157778799258892561332956506751576310183401149414117342495794337783552488105564584121056722146235705334454075743889190622068061721007720240786345043492092309282567862644424789566339143980463139967514579742363319),
  (59, 687413096637933973423823059147814957648819945582012569679991840263498600189645228279076146848325923746942018364848690193454615836385722812141520507659954194918633472048189757271848149235263225225629782865106353427758949275419897280501507759968968115393694330379149643286462239143020756460435346290667291991861657969312664849236321522038830614723541909530256919045994017808001409954789004331126804011768613262167872917583338964689239946787091170483735924079335713213555018952938268129825329326269576856093974536871333472952051645821839758564233366498541064708279708715382780517977953744326652584188464929700665229884239772295350576104387798650959446868771),
  (60, 76306379054351452884819845641190063646671915253703762360124849865561206234129046258097851597218807032980759138687177670223919813354704662218124358991186556054803548669039445049997788467837218242739430207818590380233162188672947295834930495341067554080554387397065239052759957964800916200355526074847452330494381550259986894266064964025409666931839005957031276320398551622820764438400863989123873075454252229281166270305942546145479429061284921042585777832994397973461039014587812365909739183430058742554852837879790838524510936277097803549592869523641525963708965753448151529034918005269768212799956269367817470306977829626109419217636634),
  (61, 8471709239557753638376176547769053949307965509850373962465064596557657467634108302583834357778458440629621800029843800384534810797339341376972878489435519602975095036478142959473236805629760959122424819549174448540514657194327879109393448035430930989255758526997866417442458007034260667589025666775729209107614719832917525689300441112896321418325148015394634616862781756378115481752444030732203718757772680176019957542747064185131839185753965692415652933206291646691932930637075227622230049026428820708128632755042399289145067173273195191289276369057866922637579737281271386016576406927158574094274838927067745411119394311),
  (62, 940548736880131996098365346875988122917149796419774451483796960640601524610987557456162559542411692434613476867508898557146400353515105923865789391079022232587437701718678109958091313676362475785334640930686718328597478004357601168940091859308478893248826094192531389871947154731428135382273703350069258410021795616428438338593445705444662436206579466374882201374200981786294751556028872151463382655357050627846962645019821626519473831065365252956019176052782598839309549626175060823062114471258314349081630256392738081139642565476590147392555252541105150908678671320021987573954872064720043906896104099123),
  (63, 104421878429480298264346701031078022164802014651308828047011341283190298577764871185117113531528303402788167508880619709937394299577204391384761437102144988242050425341935169402595071106508505210935105869374369469321137356739261371117069259929736271575934027115180012608270766742875010273372336778490700770838868097289644930166100621128062756998611140521738139009937196431504855252599020818942274273400437112223356279335278339260764311902169716562894104662107065184615636489238061894629922967077196531665502359061505525540669222361967997437220674079905757582927678268501525536189327931968578),
  (64, 11593154116267096851122833843238636850654539522758049093338520138064202083879777558829395007293951208825617575505548088728000436671235682580207618703637387574690352909839176358609229599819027000530599633186670439593846753319687000719929647571179673748476366734293577413884732679384857332702089692330728646087100115962373572115837844812658967230739599162782087764894498251511964389979013684943036146956567270625095326673044017244605990229751871124121606690945427095766740619604295809386918092834912924631301341511406009116199531068245408492718746127863577020834802510884807863),
  (65, 1287099024105598041326860291043384833663955663128359323186660057046602803533198702458698599876027347331752662397650344663741396949114424367781155740261453492897967114386826318146542623045910065921276197792354851059440221114849225150789640251198388418348751703288212699768836786474693608286705523579143068952366497549942198080440621677804754849087626395586702179155711786157369084517439077450229613967306880206928079699306377220671333572645096281556291369463591388554810786515456701043912487416076212030335877872037712126643091713396554517685379168615392464577),
  (66, 142900456627845277851366157535225674760805228802159805519209678971555954551730873836094844709407766682955797495537947891421910406830211126341678174764324531251097339560436610584118530602277226587431377117908477542701415980186077956974678744636886088893463673356792203705821200077957300206546027266892686145825913819217982252265117309071336623580445353209696502707302706607419168642158679492859185626259128363135195900979522436708670489822774423387442896944311370708544260402947103328620920436249809659766507290746249799125156719091737085560749),
  (67, 15864720332265983835878424447099387679528839410968205776306566190952628380688100847270627381139845972109528021132319020110459806795049318028278227129640872786620256890112878800148288981289287807936860352720671657976497446608003388309219712614050997964537592309155459463163698985808749641976073639225834387635842514154232564748575180721822048325777097480904474043290968081582873770075867124895742116120349437442369084073761758428478494781198778203810908251593545666954730046156393527902806022552919433002484864229199758100278444),
  (68, 1761244254976987845392291013150925944963350350797044944389819144146461793385262376404518050014400433627698511889986878256772231790479399172859701927922554726761997184879201590888687621734711533551989042618794537602456607079403847276845066122649464472283707358371605595787911569171603232942888304133915533880217881932587474517086203177099701183406622721387049509994401413262126398701224747684832126505530769968387237056634306407786570694796642000497397214870006227955222635240199322070635412094624484433930664344),
  (69, 195547775662336487384610677052945883880712274325669348074511175986849690235281919611639684737003435763087471277350447506108435416527786386622552147804089991545573501384576569453649553229505387436979306023786752085830359943172508279404949363623052599948910569261133308788634017084598507783015668277724743912642746789893124472923784974156775286398807113348815341967837709045509764999877985640407383673542000889583484485912049577269309128275150078400011078063762982530627401943610534981295610012748),
  (70, 21710164295456078884887836082055008711329774431476350547059636748736178277121393363322283445447281117194169805257731738968720666533020480070172901214326388341894594741687520536057745788713327856075960199129341780712412965717858624365434691043976391321084352093748291645439764385114958389034950772182285631661716190225458710769236130792526208408737266635141040546736373820952121018773444952844446497367068733638635427885429761212896992389800827641600820597863537388300924132841548),
  (71, 2410311926001700025206834317012863751476730723369794318308287555595431406915128415472053278073736369760175984278516392748537215618406190262181120798577268667889148156082755771300406736916006181774342085518117120228496304892479592987106707921189690985599208344630703228061416395728518920267244734000544194932706548623884683354068345713095930392610408106805828881860696499931254168478919789230808545978447593411635754250117228743655081698360179823563077378497401725),
  (72, 267598435290787068492700451198876234042585766653639019243733334784531609005592573012973762531059668340718518885243020753121612460949235034727503471945522660414240253562605355703809326084304468313013185773454320011244374072314068459926258117874060285769212006273966843556295796566222393338478572875577264881157912828695935342086744829684998006976851180291996202929661401245990527194760452680010839921417560580462796203334797547871503773348465624200),
  (73, 29709383884947123993649238128758618498718935811529922014241149235949511227862760829075304671083400778142060455799240566969510634402425256420815400960196572128765709812656218218909887794165471563794018788226402627760171184264357082434948525208840741721726502701152720262137362190855809426586013992393805277929941601855234924632170545630069440562215501828420942092613378654828303065574476760371874362099376290321186366896867319997567),
  (74, 3298405373425259973808812844342445507335826978953176912440830726851948763044199980060334631006151014392580933646350528057618656072973752897281906203148439665619789072213600548171937598971719891259733913897875074614394646024921118411019266463068792234038580010531772616809566811140873484002873131487327436881173759965288235354414673973971167853674171372695551621533939958684999145027338350887760633186270484628480640),
  (75, 366197248656837393647141621630942625627370387723429814634626813519956941364762707503524480362526732901386606017997962524031161338570436463970721752124923033781083283393454012672427906344393723146151083218591995819184494215312343009093023193803872254155185352885703812756455481942485630574754904221000809072671573950775549896573189399834529262017338418868653194082463070446750281009439614325301456799),
  (76, 40655985135407813429388536645043476582774660824717415761406672579199624590570580108471971520654946441811434500170461551085461261997767625586530159779198917015655309097699283914434563944635119762597038313020703761991836506166970163905133759511064193647055315493200352446233513391637210165154236204998944153470591698527246939098369355607587658350969533452942089572052024117915967687172),
  (77, 4515210595354509365174883304921367954997309201514697048289596854419599909610532371157927763821725895511631185016384898541541155095401021992679801759643593788785749773860964347910813103784094561326640066561135971386763919923129196832720799737272266936348580658685157521270935673929687752069937237350456200039141269707790814830132572235167111780002368639598080204849631),
  (78, 501123706821403248696518570090420396418799988477951330014178998969393980681218493589603923417488880017385674600954690540922335767655757056024974834078922326005314661081254041434548268923925191863877208392750008810710237919365643161609738367065544230184274974718606755805869010036420131378099151481888592235894097670425628982394272631767531742280406214),
  (79, 55583350346680547855192784494270954768442422555990141631993502629647095166823343620073883577273027325850614796742319461677639428280213102588958534435242486892344880628274110218132281844010902826147193490200811749807796242966415094798237535809059850757750537261736120527711162284647579970970480169495261610468309984216340868742032299369),
  (80, 6176826406933662959725983296498332743553490495821270058826102673261622159986036049311054536175907909523716222092899900718809056835678291437937975391188499435492838700672309514346426223244647416196824359382677306359163841652386821597111420014499185902630371848637017163086628290124614339582682229582249838558956449143344),
  (81, 685765508599211161537311318134749748449702569237829562685018403182329272150228074862463863060085687076302449951624461729539180013626997072106788641119739373765978055014278352275128948232031383475618673886561627456223569552932992903013065984808239188371958091675277220557371558883315345448324468306332978),
  (82, 76135280995890007608743995485013360200956269995638088317943506295112940907848975382924419801752526538322744943966066831185296838435878168350989575448659816158831475851539992098821186574023321578301177450659858762901169103141182292211299677053549565181021717989795735717245589936520160322),
  (83, 8452712498170644880046289917887140112415894607755876913086467537964145527450667299145411606083723678588236331016168239245805729245431126634273985644404288767839866521321080591204262335683390901956964544787221193816983673871344633734441788086992462796495499288193489597643),
  (84, 938442349486708768672902052837075949842711629424982842687131396825811521418519098992461824090256794218153814520700905183083086587964672217571714307428150583012312559023552567645314855541506587291088448148105202909271717561664834535992886038240614050512274),
  (85, 104187725513747734597788941414632117933239662151908351298851534122116314039206753710257493838370591939075600558331479649014930340156324558678827568885210381268745103292476944340218782217637160886849752031267652790105238944776830550555650120),
  (86, 11566610029683962822008051100981025605015465825031891162417478427097799205882917530125955516976402982173239010040360209511441676538119041962350371083335950072205522115599682005786989579990008230561469084874001794869764684247),
  (87, 1284212866588958518368803845297162398154818367665920792188115519742892897732557073444672789508977562650745347331419071415662986838389285709192928942732658905577497696447592991511890769288112381539695293605344),
  (88, 142588482422808092097216467706003318025845411869304947913612551749559965305055389421321070021082427165577513769866202181435589263099084762855256614936488347927189913751136479214528625597217139),
  (89, 15829145694278691937049073872146922121207874678003712324697580329436591071629031813619348362628288632451762990040734290790132550668301226012388502015439550099646880736169019328),
  (90, 1757388200993436282136665985059061868018573282003204024620157526558706593349205998312497430034402007166813904591845615554001842812023344834117214522925466444487),
  (91, 195109383833752831484543263204989253148032244800444692768311192517219798419550388901444519964132641671395224376955312896194890119885006959151322),
  (92, 21661481985318868495849455516058623116986034384399821934376359461211638649190957740452752499058538231531883288049432195417281030),
  (93, 2404915142096799887352662402909279640985212713112387498206993185029895206338818850248052750540697514774057603025),
  (94, 266998379490113789946061900600678728325688776114764200218708562560940087146229339325579129189149),
  (95, 29647807269392450311183318212701966655135169990070862808917242908158368169481901),
  (96, 3291009114642412448906416750939946165434915613358823811422959528),
  (97, 364993577045739223917347412150253700406253247362),
  (98, 40564819207303345351547307764245),
  (99, 4510298778614240)], [
  (0, 143862307996662689148599322767011709528616497493411622892905238196164736711522867650862058392740496651975957746901228848685476164425542597340208209652578699369846342973830422512321487482288149261337836170440908164718789295820428846929600744310487859232134250560878723770472225377471839298197567517567026212684656418279104342942685216401947051166321345975141314213752359468236129191074639261134463929861212568859812336241533514005845836631794485577932945177330629956899005521303236381766790093852237592639592026716026015963996345328962314330344199134357006281178223104640630132381433025897175903171642233404908397250151961472638766683789134922490811901886483582111025808616088029679448920183292774884776758415947807161432633530400903411127168408563511937731690514492827711674926990266530460536862340408260690653693157729977852123471813250992719925332571553923800367026672703194260227358732571670546572484404643972895578523643665959222233444818116992966065686570401594630434697233561805422285465954219436132440644983318107078081141400498367421213616520342534205969598756558397908876997313826569876732373247051738362228572993018951136676461338231573284759751128020045974421364657784833589286927132101191074133697659563372197462347581301507860740882955522057295205108254392443589741084342168639458525094274418503402486799895753611326536433614618886413473557669229882436784698225737512090247702815805316145317754284443316048932182127245031306354561255825633382295569605037786150259848812512394797677332298003511591716688208885806862193512665251776157341206633141169162937379403191946389611353336709120)]⟩

theorem shearLow2_ok : shearPlate.lowOk (77853142917 / 200000000) 4357049400000000 ⟨37180115858359600, 15939377645640400, 37052486930359600, 95721696000000, 95721696000000, 65262831458361600, 0, 0, -1696049948173145499⟩ shearLow2 1 = true := by decide +kernel

def shearVec2 : List ℕ := [
  10884152279460981994758084651600969325225733520719436032366159458107401965413552790367913429733940673545774685047325898328353548679093739983180419643649469800142174668822677818525521080148717257235898828795086186345396757057388776247926975747654000699314391637415708411490071369455530417953435884753571483410628241629534884513532614795106822135414279035198677803174777590202606921440458925582237266858458778692991177311177331117662725885200524187867220836032298847509483816730275940646487927943276628438546478311598145460778357326333832205369648845313876030524288070867271684216805106917418796559715026599166479822856782505891038706399917428252826864302333251938066807468337349690206535498328957338901683752740482559147421079419954502695688985793218419746040549336825205860749386700690308309572757387811458945713164123206587012568667486698715654247908901294155682803589518374679570396274117121723103495359891147350782611443493052399792993645484919713377763865875779353629578862895193247235642692846358081048857620529164372257032943757797957518967891577853009762977029158500483723496928249330567881453121666755926430777324438206830853111841142068486954997938773103579406627715381244573877323163312418055245106689445441808633182167049837674876491742578707336074576669,
  10591361539163000463457844838689732991887799030700089857103628450514300144342203263299774535480549910511759235113904528262632498374583587025150166393591547437366343611651087401242147574945990566820129360794815121501566589158548851890421881159269959955876329498298222370639625475586675738506744334580002368336443445080653764935976933434226454926675919044235996370023693606390367561992635798417124652648057402316394527999869920688975866010506078176349075994692706727679513600446619023439554270648656653779955544337211008836848172924503665757382751990679370300922316660914301566208478191577085410941680492828250588437219143219875899392657518052066886051837672218721789412157599427185047637142746480200531547316433654778678612691733832437230370412696838489993032146216517180154010691381711757954533836648039466407819794749830183661535033474358251180364024391126200175548783473330805993771933895354266857414298885826319262109085278680738465152373601185552387095869570584214850814678618462616447983145912525927414149832786764574465112200063349280155896356834184508670853525378580654439817683492204463367795740364082462725246241031997352299142289256847768506090047291638561728177295012214093751301919720471105958069449743272362869927572114695972794688722497815561585557504]

theorem shearHigh2_ok : shearPlate.highOk (77853142919 / 200000000) 4357049400000000 ⟨37180115858359600, 15939377645640400, 37052486930359600, 95721696000000, 95721696000000, 65262831458361600, 0, 0, -1696049948216715993⟩ 383 42 0 shearVec2 = true := by
  decide +kernel

def shearLow3 : Cert := ⟨355, 264, 57, 2 ^ 208, 1825336119268064597124375917618210631788132676716160348423600327937868000000000000, 677240597595777419770053495620225188176235180224227040883200395823394900, [
  (0, 371488450318175259344931738453815273459557308814541829161462375485116107571302552166223311856444559134774026572422129313731899575982777370576506800725343351670183468778100080750709108461914283175366188305826606950362102195651269603404068546662452642194432687850720226157589587327414146760855457486408789449657147812992765579494532542250608417100920575446461776248625177666172923086588967058459315644155054077767460666865765366299163598251007559002326208567220415766767056652492344762662922263475995670366536927436121286811859795534093934065794630118314492219389066133906888614256327435528516169409863731660938110344047924293057568329802068653838381726626061050335676640558598523078764447030498505623238754945643787261016214417852151150849199770882525048412698061290881705620414606530056064746791245343179666292711019693269229472461055546436412436310167268530358113763342734265087696016121279827810636153457083395404540189006767008273044328226055290767835345436339655526946659901428618746670529372610380106182596430572310499982054690936013653811377232265480557379071964383908707940309213903035016012119495443138345156854152374462349340078109241342721006093186915472494319367417394897179466896943786146669980758802826729450468114642516712782622239733721508761939696285558135194892791559407914080385507421894976223627484135876780544632556316616903409461803561044921935444715192703892598251047388776264914631330894926833710889869408697151492529714444109534200468428968604696503766034922820466236295971261885775860146865017405010139684409633724642879613372385415111835191741862247779734032508892669407076006242330728621770634203814680246369915451405440372013786129854788290927948029961193525304721822951711370539605006098),
  (1, 2577718783394076814450410553485632084218276779303067879119918308903464799804113874050943693667367309038885219888835402379723025733228352183199476587922903921799247922971870541876929850461191848959962732597774008532590786881608142794368435302803686398975951153487981284732097296148129584454786156801265587684040790168231715706312745798107724927895077674421922296304058299659457091410260959816523713924390284819751545976552099201613286882813736901320459379764236190646649257840176626567091898706715088007859417677534702567769429099361789964576792744046344195832235647485964211334318998832256731509906682743815126814422136880921374018862974329645846798296621089269012491437030461139145379733925327171338673636669543261998317612916001049511814898657778387608659533498686919023161235832102148949727675418712410052618576979637265777208465842613052088337352090162252045761440492800341090945345305915845518457219585241846967437489243647005354111144766314396330524498359196572210932729637495614551819716661379193978911350996476828250271163859937434232324133472721865779503133318290470072311777497404393278661860714395103671120526050150306524491523777644605387875991440721428731698167235705704634950283079581813182410631847841343768723197201101759565544294097589034874952753246035975677238351857123288108575737846255253421763921428448377705908078638969670463718746909644150937691035596214579275820219003120348102115555610576004556612919141260269797607650713148225110964496553562304077130684340629037637540369494309394524335637975547128930261525091925101393497164308386297836856345221984639043318199733907606765260403076207222842463028748570731889759271477665408654308222179380607072104632820862199172325918730),
  (2, 17886516948332177853395697726871723225908245757886608201208884052686533159031709057633231891948993542167398811471431419703880942489391999650284076956197617382514815899599791605914307450584330840175448711647132717835075174575969431947878284734731798535699693909981993514742855281841715464940203619400829842219205045498350395705907311035318531713150161417776341355278686534256005849233802184853420003569212063352692680239639569523203043911778319659621751565787775573626105434150144793413200912582976692926163376072552775809119122699832339252877148487363787806636598426042021492119182071205824160741187420687663211458283712601110066326926115769911852144653722804535421989610149949493553453892513020438011294747089869288039573113361654613091556726298725858524089058674363883711957916500692619246317339719073928770440431351666123173603515556555533677097061038482450266371890873602173437164097297560592755038022613814557056929085560547335392948692902655895172247027166569754819489706649132536465693854035512381707975061039156530637601695349264834527314929996593619858796781639731094050105006931583121339712989676020323713353718987414322621375014179139378492217301269182317758385921432726396356573175465579906393689862523032893280189076576910326373500695727202853862233063586456093042238941336575306724969628738515160511135526510914127149230274688858280082727825958110132194241443855164546278196954693622861771771030826621797084276152836646751121917655994714526485131215760339464688161866166247855341523890965932675470360545336795264452688140381170381044475659304758895291707456506792158896570023052058500083299354144664454034521279105937141198563250003814548749871772841863760186125419105),
  (3, 124112644828702190530305059777698561520790827533981720875133903470677525597910242474139160217667921476514270790222151548961425362060666927420514415474185269276109943312662327956378716971711144250345681167174586272711931330993061110700061986951358594101989491757610868884254796983202850098676764760932626033000758795355683900167954709554880390361741473128854018370377694884553569527319210472639837279128635024324161052899417127856826720585517895029378271549584192543239583751357345947544092879475077485725571158985792272903718409871117662721066106049966540999331181041845684634789595891096747364689603194961420455568122180768432241818149449180056627811703688634658543457343543936553258549803861621249467111082352800769704918443030587238977052913559502296407589191189588643426918591254875394882938132574433551578249136895780188246434395792598315558407858807110096480262452046798514753690671248413098275370384975627028515826215885930157653039334955511388120616899283960679332372378503727229861601292383811864834632543479427533777591902686794801749339290690533880395497608138287778001982794158048835684443885193495419185300139355308705060846237805369357238917319494597733591528972077148797744437181368642827824769480420835793788201755432937099473185080803260826235720888336904835265390896840674801816718784910566972106426574307483972970720971992657901492697042350002401353963052901757196216883643834950526678115963415905062357146336314103009363073387897361506472412827790597431371934292433563802684470137332898057060656450923128984906658929950319104164484590172613650782370556415222835731585206264742024034586935927183450651697033879293199496026970513261643059765378433),
  (4, 861204476203699231747224704772613567238736136932307807873898262382254141631137613776764262586543496746423414515365324024865148182386132946365053247277066618426592153406444530530441520468573915214560812568492305116155726217592550948610978055293872624451151179132836196210093583147581631817377911073409074279379811922175407762693766007767523781299702193649149303641415271217016272923388815465591584947430215562993717542770081790542976238412467902397816896660496165249527903533048617342640022428301603151038752338179194397719269235499554715779332472053561107017927450232791897467240280940408733728759489973767106335341352549518229482080077046199692548539985822083029098876466052067961093026319412641467472336441324351369321461654939144563225232726340444185354073373522236322482111731827168742716504400687160414498297170036858896940545332248172075984988362192223556150590183438910929262439546219209436743990971577116061009374012465333140126348343645114303771187053804997574352620327435933190654595106622782041254987125791769004218159234713900403356762391065740495686774371854445980527400712930906950755050856000509806557319580973274766057894970428918265416090887595715704541673282704544922137142471277904466638428358446113274013730367189459780994134323086668449947820867198926017746391091245165409107333828706066336579135222577329166892630975563120503523383373578461292923886212361725934897215313180586485316801260677989962996516952876116742641247521922670878586057212220400721788512765656313162797757101869955014169963317341837524901544176066593925542570499329971234143273851940172462984169912129813259142817030296869692250970299108032952553508632827),
  (5, 5975806478817379132399596156972597366735255633815913866924569297644173886510243693008679674931877640198527004034142484919847218877138086283948569592252890486195858007594724601460896236733703469337581395836650879554527021963795331677597446780605117186380391111292199236931629455213165553926469063513590425223322491387685046571183324128276627997325469557441960227877959001886199991677968963656262108508906893794739755854104836656723141856553176829378420924433734717393469741112527520946137577849392205262443359636417328229124393556172461227075873353031810345601016359991055437410142557516699026175563748773618531761330066636244050865663842482467361593129392003234229748263610568944124917059354070751984528617201560996126621646184295885498534543506601932026713977157676049727277219061851357853185932867270798978584224036319820150282006462755561058341761833476873493684875502773212404531093940386173610348107370844546214951097474051629979306363790110746638834937994897205965718242301292862699978999345118687893159404358901929888654414007485651206803985651639806755854338827988539081761826859135694315963876228614111022482002269678432058516616269801811088905314564308100200425919620235534743459708784276446070170355400344554311179005660422541480798017422121646601256140819645702564617533517377140896030765695021333566855291787562816036925632095445140703347649062745801747465418398292754341533487867794976577837075017665343753980820018558649779700909402402408762545144002588786172891281341493525240388835278942439971179470285917529092800568896067876798204259831720447778881319607555348078801020699760624550238316789049749359476390654614),
  (6, 41465487143906325441519245382663267727211691298216353246110347884890543951216864781804173506105995973658096463009887283965124082536035314418303053468831691161390521325236598672206523366315667064760163760162440145557011180150072535839409741292493844694108646020236012158466569387387164443581539137698269831333081654395021087673986497157094058302495073995712381538300991282044367254341091813799708559385923745507708148881507906485192303816337685714469740249504037953702123437381961588775401378449452237098814291819229794935127722173279662600673988467691969139128404095640372310791159493142007373787463913749340249012733728508965707392619190817878046775459585393713135555089860066637765795328061722028300014205196305917595209711821881053413416062110063539555105510320993393689332336186041141293415242095474131792551910503417152939893839698096867785521305772109601700725987906885685587738027539360584545398628775639455479755419395547442672608130640054313831737025782120134911155622874869037785891126889808831503714186759762110593799346192622567690544002351803151443108723695231533250347846126877549867405481478012835674475962734366039940102959586380053261252150824107527107591545981446487935692747896084507142756730992445548069866804673204411862158181566522372899847788639150447997724454827501737010923670170463390655581568470089208607884314747325822793155963498047192131647018339327844877917896841353644010506875303736441993747162775261494812511387053317431845074154843269614351765706499017249239989854517170196762980969490070094775583875818208756333357751911522864385869212154887509859671917507227227467299082320955),
  (7, 287724615985440967455285262093125604272436814784370680475877590365447675433758527159069437955021338810606333680876654492594681437891010054314796599036330723097736708410868269438688102512169597802064581476833901310423364904786333942785804048700268589169391247160028878344233126703453146870823542532348464575661055176827199773221442762696003082967578231850152698663628081999323436394395638381243405230344851737078399513946003252796139520162715759164529265065287443513853423732586352529342382243391251765135976377219501483131949242383392339635327606072693145553446909662352822009451763760025757239354545940714294859765477346796132393873449412324004201123084473885437797319408216248093360915666921887231138467859034375744526420250505739041892898285286705182798083420710852263461471177680778163601800522290874363689259752236219269456978713676578139590253185648065306703401440806848561500294531453795423277130289213509413475967127920117764489182694280076930774114613325374316964575165287191437445079342694895739121373596885637626074659408684935675104736345476247584415592719304716724629064906480378587025631727300138118413835940918344817712271633605022916087391238636305440900537720513925931049044127794396752077500319048838901426813656979530909461554159038497931483673878722821152539727330246710964161381942938914776175169205637958134859576789596217303916489457282520906332920035004780410878740250226858348839383376810780087292915785586585135234458415653730144244823856968265529787251628273693632958505851605093134144789312555407509128838262048556055160474684567089534277872838412152475656250771605909),
  (8, 1996490583890228071906391939897357085088119753236050908513315439567825127458587831708958076806682483073265669351214677872515872957014554676622602537955593585309968180839368930725266646466710622574222854472556168903544411723981106930138661247399881679901252964939126336896964072684765053701603897091495170016085451840819135451274448066836792255466323627522410338230883899961756396932647879471575756388738783028575588086228529286689356391849618280908329968516675508706337920191412495303324485784688271260000344894927710269801987891922695157366323246556348385150232639876364096597768065629556350496497016752734381813775265998375764265667111191365167283167929790379751660103102458604323127620968871565870057647097235265308810461691601465520941555702522255135424815582158782790719962315567919842391416047365032568844252200246528545401179938206395923104660960584467098419183810385537313522409830922425255740354644072831235648398256824443454403476431729497250197308628875065211037909505720328943989230011109800766218472065655897681565650498288891242922003075231144550689948014022922700824457561876269537279765843127427059324789552874814147962235679410919659033263052900374957575176850260897389592639109230996970450760424556471800850192418317523708310253480084628774305259238050234993872935343391129151222423442174664050052387247383392802138355508074124352523496923278471770254099917680093919500528612743586536364865197673543142046959057882236715736786374097343169486066650655102590048067988765440522666084510576532517092438994159268777322379200720619392456081715585634254280436678982249),
  (9, 13853436341591977859569731694681575980395432188323806238812924125249647069367629706365172854531902377641844249507088269496053722421785253245227093657385371186318206863288392962958663305805573958065268617031102858919230801625579244317606967701944918985326210216141819759373132984950163632328180946119538813778760859203552938497808034524352234367693222762517652271483720571807002733029346624023607668334832683911822405736939653518881790289249924684628383103976565094685618574834852715566405366007897954320347974059179870447927571885700360557136395971984004090471924394070806691146632455120458842592601450812006444809144874417371601032255955833700965558700895985766029624462342717313693336551070744629368011539477180312157759695388946330845677452073039528632884187820584812499912040838739242606983441271268488198274368948176805104943385198150087773304247802328633366893133572946999797825163400663077477027639930477489965998864820016745590194749139173488596447673047834060270948768132317244540973478239137021728382542681190102703741461257060707459360575028337387332733573741745674244498153265361799263333249065194554687034546347391577256240941057234455645168127346260858089101934651965922049827157399851776667909326310446651435188261118220169226334431041292024691495101273099363258289677905342859791252574475660055872122351149933216528439545191100896211045013462567400491855481539504714911583178041845898696828012094291506461795663516451414430721302212230844028861696752689330156806543466171719990534985496171190997489937402196014691729837807052729859108590206619916),
  (10, 96127524978839431060507532873731452780170649922030374265727012793007324343571603601679284482477783160373147679829468545824094884981518870246646932308626272512387263846983406114209285003465572898247219387020950656226067492285565478548720061952209185392259971435685072942722300260964349326973391822601432204096269414567503219589018916794281566625982829916715372664535743149268940947505610011160532799015519920588941687217831820170928510281954616755146893009094952280275018503283242197627280856054412577712063899192006033213533224035330609298068018871860774365815984135244113271958312286731850782450606545150305988457725940737469583073805964178785385242285154321791055621441692029891079715843377224364141600607618797378869906310163236368460755901845207823040807223537400400026256823385252741441501685651347700213063719794975607904751901927396724163203200069217230684047922205300574128291088656541115195387383760439717286942797349936673998976461670863230250657148112626452321809732012644975409780928058289099794056764474771503956663314052310832967809721636254849099075512489863881008535255069526327277044950875035542487576204756414856795958131115174127738382773648287535578589015905424287122678433874057898504782909072300086071539065310743932269044566932922130595058198765243640774025933445304755390123194213593100132219636597433419570074137104099407679689765196185990681209764603280382922552089779181649647072011976967887958393192790936148703684598717615011781277071511571599250801430154131267388403804134877370420957861360891100669381974533538816),
  (11, 667018672283880646633649392861149475739541810634032917215862610206732798532559791006031421562959918828489161067015676058976480537301548838803726838831068546109848620664233633107631444842901528788462762943057886848473390962337328093920229108678966352933785268751192483428820235559330647695389539472607123751226854299139691056571350437434372772871838412650284713280066168314080938252123812020395102518871173007525987240722404958713201491156987000684405203048593847104740412188192534117529748526399728890938611819811582966089439410256762062194788489994605625575276093418044080991754821706778529286414686207293935305278301454210709140415452409689739965413241602801604935916087235101843868945506225473819698765393778894665286818361027037840539871379310524777916148125520611227449779014079782456456545179234440747220433933335143345392418732153555294793292586240841189387694078837965216438305412945914589683254144772947604055722467276660194655708303143831806828172066829213814614138632656464038664757349495780959651207905492714523555903711563608398017307164248140514779792982741642820069209297212685623079561316716522336519714264202919012242598603105369581465253647429613519713026456671096188291418090003582713800229499128470899732104994628039826111053725776312205830888456532254108089436455265201878007401749347476857092623231983703332131923125599349212232335354730433801611568209369385979838897414598550205598986182527159795733969393379749014267480204329501830047527972299804818720853535041629463508973170554847297253814367618592113),
  (12, 4628371970914471269617397349638336284101347032166842931612559420474033333083417297283300883185317657994920863048328755592069915010452422042417575081122172178664028949434240447597356007331880817240391006267667463268264995420430578776629929748620055254226449145896811889686660822837172023967034432044539249493207524551296432797444983373907520486520863419268095220641076163680820340878180631775018346050057294156366171964390049399773040384774168990803497740982524705710110778144107470083733313873939669535245680026960969154929838834531442718627708101536437922053996121068763276403268428805660647770801648551782479045478894110963650489178946891820864864236204035944391243687296002011433324507802326976829755212285817850315027793286830880832109382848226352351911586628558716426282610456473318850328117802401064101626845803070949912935807352693421288703252277342602749210256388949915388905567913875694918797694078098556193846074787601931708526411492317233160805302367702006777313765277066678048106525240582744654833612910049053136947184847131076306393772744278023958884894483307954760621816581050948074550777579532898778136243871633029849269039357638738882358153037883198964797303314070663482805666087823778366844641139466777313652308378707208309574820722475887331657175319564086002279285650509896260810921557281529423799135429533425613690492604279476179288204568655064529889636369818979253071145969657787436730279359608411088052734950984153843850260651837691862391296882355068983794675199203271571686935468833392976),
  (13, 32115782026668839030664026555555371467321743005464095667399442230316510467129283767017852156337409315830803816286024978941940129039891729068094828335296956298117141802438938001609250726953179183709731627768731858577200072067475186085622849596859828140096206361875730764063748002054958723056125169408420788324149667809600822271410494799708772240106633665330696208069796975180518124857178429390375552477827065390085155175021359027370985854314933732629803880663068545227345606530191885108533053851225870839280891431050113939314451227142529743536091463925517239507033574890195008788512184356232681384347003449552197365268356285128791931770268272072325347568372786943864396515698826913344729708794085596993896840091119502138639728016876674637773636757636639914449303001028170352496663832503160565881343588502785639485592881800273157745389021932293410639468061942773198479679459371715010970524278250874062864501882417639280081429623008000687670526549468278528932580644945503651439780693380524449732327480079315195189483690234603056156346721982466300262208504260590472986879648686098221419106714166035179577421924713549254033978487701834110805102655525139478827403200296392687876626140676999778706669417309443977108574999961432486922153377934946457451547996200361999036560769335919100813037084635337155634027486634272536168306828089776486777252414065442239349869348723391631921801586235040401415516802618311083532760662982984984130115239708980049948692846017859785479058318701863058273750646626521578),
  (14, 222848004313668721237532140961361652916861155429629371849244332766622242018522667649510178461029256133088105126553682227032505440073344292413034481420596410146440242057564933447828837245017267650708860203573960706638250004504313557606050048204695673252829751898972599877458757094381824293792040957232020992619431269611743590923758535565135821080982630615733350132749678684081568991831143757500684000659029710388386946581073534680127374173314434885046031869690400316358827104714469138356446654940777440701675996395635248751247726512254834291817670917276499810841822588577557023839178440471102424130610098607172053823306129774498658070474886018954098113949512419641597053109770249441444580027148610638323469123268752153022373920324191383168756417370987876630613357683410271486557589007708796269866294833496270762978503090619563270226368241882128643695706767888417911960214288337953321145382851181230720721576745997649360415196176371555703561553268002796602854061544749625664118239041896771161386475431266227934914653522388542172618731481145154170072780632774952688158433922243450277439339728386743486059314686007127177743059258554973322661834406813468569692429912948280429264195498023866681933423063749586687825338159901618226442543149512434076837764425046576565072527060022764881964551851542652735143817970319876568011288756590796158679069647139611045696410136534231964124925882949424058529300454274713397297963246107798443295359991525434365000324297882937002142914515317549866),
  (15, 1546318658616920729211711011731126423580493722262284507240598575372667215647876468354097017464966818039334599689921298921289574210736667456259456086213905664335199616365450161689627176682051123269146194451918224511684329303969721829828496094086980537300520942688632206767799848311162113007122232702753951708291651886314373191019676463998197404177195595449175257851805044719504702925796700001026347655988773095430180855447936998166137039444941776749191863403143212628758720298112064016249037109433061688630756340215979966876078976622671161756415933151771862633173358083669809052517116351927490598953880597798040957119502408354107759158506050918283883881774747922121281058908212769817829684475356847462126187149185070642077179601160672497133508886277222652899742471106301479562919090376877243301044248340755292620052695333082006230873667015455790912083918952319072450712305110188063559906514359921673889037496688698028218280010357061315986851420155231816325445256294460794772531905897466947747355640444133475113444769021345674731118289603124931866569882621463899134312312625737877099092855662841383102756481751165479041328358326723220609031834830003493270455883513745193946789727814553872525250077161959536851723874914438290728636489973541130570949605624826509518518542223734257251375339367995449933416189695632871485233668403182165722886348490238929134299443836225018755256694838296830242004649927565584985943248244507107201860086604395142881570027047330582600),
  (16, 10729741113865762394494441235844451339906903651254431231356197554456022201614038186083454630680604014972154840983739016823857819535503023173954644315127801466302237242225760695524550262540634646216807657320893102191615839983835258480210367886567255122804939175784290742331392132920114998289800550145255779390514936009112380074148610810287381883899985742372282446283811206328356941372565310393377562424201156766944339797019414558196905807674853255004797359177447989475311888334514504177987433485251966046213224357738773910430864056550826439837110652878183347403987981790350021866761993218875635577102827561151372155846006025990730851570464793035404820221491311382541273024163882191721210070061257127330941164114117951739636330444741742956212689152205055547905817020192052265603184727417160087667171208960248151146971587072130601400066670747474791404721785438469306289092510820618204032175303608798763748407635436512294496709077841499070475751641256831052645509216465495502342260394049790142546522355933954346126595079520875129483720331184816084995841410703668217234615034636423063750806911480897951239867182029742988564743436914867541251276399156050186855689562689600415353602755008343090611695462838717471503899103715396802911567962398410977897245711825490281723189659935275551198333109152449013742160003846172562304680328474027008504855596955397273906195828239410298942429575064886092961372097562143568397753979174049366148845869271189735592),
  (17, 74452535202166507872351444117228950702358608931972309531586192342917043641287470446983586645592306845368744992658933771545754275102188119631990355664771028683294991753424001474133199248220120564246436317347283056896586075575956014898961072484213293190159153889476480408753954954238982388037623873557370141739788132408555011561850266720937954076427428447772812310390966304873940311759347700189010411355025395844659479801593561234505000490839348551208878441302127634086071206466134518534602099101069479824990023825957493332738573590486109637286082987561903301144468557317414105796594084176140106314322111149220977521684521622107700765338776674871269946275141088760786797048233433432527237851747359982373147219116776631932092777421383755221528069833377559487816896603605219131419271216424215008852332838915151152996708018736699126526511248649562201566066453867799503627130132878404797274699698631825974769452018122081108590950099403128767381720665938901537817485987980058002482841992690204833718255381992765903323551395718486257581912489614578583465471358987941068890687469041863970503766781857897978154021949931337861467603076786721295223045042988209561574325388406660514645496176402952706756691031691509973069196512725751440160866193615867741051913376589156666288635082954639209284453801033424954690644628587125061994201588719611644296355174942626864096825037010082114148127581795641732301933350247763670281220361998507415402),
  (18, 516618242667923146131089814135660031322520315087362029254398990663101685281735196260946046052352076991258369829879837614710210172914502563080117651956667665647503515944591775698068131133995483726699700558658930497541694866726691410520722049817109772505420258417830999680171770194174809812770193493017371721456886475822845008219132630683952091878175743007159594408631492574675568274044201114118327219378880390425135847539713002784376212593703242875741257126513938180930107664772317796351820088131283756194990135579554401948999659821339873910744461426416130333534301446535792779939927685436567529493336830967208396984632821080530289130871494774599347114642247366578321173176760040011615384263386419798942942509251822717483383037415013015024501158568144658454103234926328261585402464642757076847392933241340038094759627426712381265765592858854683935167434238551135399029179254498926556935817149528049037913914439099710055585505490465236081589247463216208325561714767819331165996813387873027283241199866187902821532438240495204977433437776414069897657649050388964658711295156224126779586847993373803714994013507799248791117382388511858262947117217602799149073659181815265107629918512787377399402247737502728783670897492466676139268529433155957632257327882124344172607880644998602181133400860938229552260840963223238260499909093561013630639839271724212148223049957633529852202140744996418632531551299010457260682),
  (19, 3584759174723810444052188325738162040640989953851296377624355555123149936583016801748963604746845952789036015079338575911760073617117543167257517939112839528617377647310402933992696765205236554056815296169964249712325499866899346376884741964731085129410034845141442879271304040485664637289354546855816085839282316338309354973791894815250712378857737013337816888769130128408981740839413921271389794376404869252259584329207560495780987332217688356969754828116889138246365494679596436913688304717020863615361987893192256704279726562124414006187336661489246083506546031434145546121585898906352826823007661796240843419036733237498730553742477640057036475817856756498039510384506049156177742119249595443472939974289609296471258215762076475825583000875578025792100536547280680965908993409204601868808370401256142720359220273377898799488812523407035784800246979699266419722264329763912668132244614562773588495160665302893274423352696596794420224819206177197889329258004982377526347756688450138140098188571636430212155807978221321168759804056211776538319125675885965213132548506279545768544189775596058875799638250674302567067945425447091610724156282649778147190263207299022877263211126091269981504496018899667056819913171075416638615546381935521825006644590348399229531838648389379760411051261570468749915969022366955850295553980057798244306782041936538349562495957622891692808480628221647771154375),
  (20, 24874263434863942003836180266831644307978430278025045966824150406962488985755622994967836780600228383648160214440431453947023716197286361531965673773576884596031459029263728583443745498897394034987469855739051214007004066222379222307950696732312979324126015331553069202132277866528087085190115215449324695664870361144892941354190319071641579359205564255852442685259880377681200583832047160857744028191539911574904595810028923377775947179143526195031669825258238375524652630689840840953214374003799068013384402065371207947339577875819040673223130719367138445565017695351495215744456721117092263739365802996698706476140983731683392012948184088369064849351217113050664691386324819732194319042380416937439966873848007018441140864306402229314373883015735750938636804380887530681928797858418452877217388583805249683525264675176776134910007633174602465174438163551364646420974965999082797489091880473141362681059091881085411257380702345374328376217246095274173446472907244917111674029095160676640282409487235961190666929176732317377281588538181587077109181073467557510262153362977001793049113827020914427661775212867189404860492224009903902797989620348310336557053882415284094408106579529668447715959380348067109085791849637548156498039075904304389271094446680118836246784411901434883153517654159108167830464601625482912092426634166346467661452211192291259067072736274930919039096),
  (21, 172599875949083898332763449231317963608934217397097406917905772547844202894766821442888991459751431491395001574253173518865998088085340009099241015556790152113469357996499595797688043843229847272944889000998905613057509508807914409837263447291567200193267343534509670148039271738962068615836589107715358311417040430135877412596487176724456613826652063252662827948851834571056605038809718817963307576255796402907751064263927695137031188861201330708809884526029631260589061919097786095109966462429456014254568314411004389585239917367423971051680772593323053080168846344752085922893713726463772596353614974953148424735154566298558351400326774876971575070993539697976932326530148905786676724075830129868296446325411775713944430115521425691030015630964104126067751168911116914719781898304089348019081657354918473550608957895217242455916513585309349171390188534849857963888825031372831847169212850064916100440236720011457809278952707373493673990132972997425016524610100258766891615948135355377384943455639466522508614455117204033859561835655423921673722585844869535933335922293919751817220610799833641672266663560449638056518182689507712519293487722646243932667094465124198009944568172677053912973236563239912615825659117894303434246510612965239139120466908783552683552396009322854270474462126576010066245682289092990948795579671467046928031757551657340020873691),
  (22, 1197652231223161952514377791823065463185404985165454886497556628522457657801234108337191079452347984084491985163518723970228628899008343510811470749140771062943502685865791836656150604943427365916076368194717668745552854664797687975557072947548490204972678552356879803709376722044406520057223788277190029305115594958252065398580254658659433259274205141223323186112981078827151925781732063567877785639824675646490237336671865658177738014705132504243864610189664942246108296560745187684311143567720502755639182401285289228860360673666353315127894165670271989531244606788380809599141021293322671259950385176417600221333439789793601685800610084244396109339653672888349694111636470214881844125051976166610360580186476058993743976230888850449157650209616748094916659214512034916537437313742590676299547271115343177982156887754263178225176936231333949391524018760330352479595224748032412837766642170424065305432500899455474955940902857339628410097886812187450239042078025188549998060170290080893086202299464552771273724588719810313924690367563277823428018207097220343787046366575539246759014342032829748522843996948837181387855349045998040147059942359998001255216318076658169978873609945133883384081887476975158800226269550355881116621954627244132265536231505494771938383257964025866116186666751965148398956077120676451069454518803265448775745443),
  (23, 8310381737196573984195506500265018711669023636750019119646794569227444576143412499284807466727766058661063150544855329934575226501983808549610718119394345245425868745335170145852201335123685729481979263500856105247358569729609862833731268480288940440953489715961603025916848464392040597454947645449541878134900094694938066911957050823630067230604118493660280491212294572181633606002642718445674336399700071369106206536059446864416861276609941459634565236817122427699575296723127621355188339971325102216400845274734573024102286458414392661853451345695246719476857446769999715383899124762001784016440044418145765411373602641309698435284157236214839308167927089082074732073016274576406496041966344599752716000862387049519658743748197956975597651727509331025977680246240937136644927966262724918502722898392717259294594127282631103161975570008320150451124732194961136985179019667239385446479618157149769994176644756853085857725481623649084041946863649736501990236637094575341040274753293405619661983628954988827986235906977874009443764917176385559109746849525609522804705539110315234907092768795464268794274305236574975764582752821783991527816273553566144853442166047901892265990107823690436336594007809033745956542207233486373050854309937954185657695703535673149760264967710431705270972022717631974486084683549565397754632664),
  (24, 57664857194793853674030223450793994129081565162145412396254996592196813673507637332909683802981109076380239736183902516395899559656330922833418202457537427058842296348695656444817243280098622490232008734245963751737932656796934683775774428478407142956711575614773280939580394277439147993027494535746445504514254607169157895773637102461229957303276674014041563364208665518167156779363140171827728170912465477135332628997257469930945013689901584169998827514661026551622929311140581546867465607026756797749523264443402671377509806134552873895323667606658594709662136286425539801235994218800571852277019851393877873439958797816194580575825682457148942096893612839283981188675567168047934952484316886644146250443688690130510967687848084272752032158735244307888314877795944154660103874176439929918045763953647672453270911680868891876849167008220424618295370892338985689959695089301078512473526654120366481176254272823410149101450717758980193988686348234277250062248833661030124296446553577427336814438979321811777745055412149743212649410452782429497563234236628297902655284208710416294551665309994579382419544673957748250192803059009648670116625280431900773852530736184714000802155055603880653993482616388047177051334214657532917771041727572359312863827705472898462208765124942208671350340828406223224678239889),
  (25, 400130325923892455289941101505714404011416227322799097682597575189164522380566027917299960417323182904263903244668022591668138646274423736972814505615968512740973154550978654774032800390861915725413055158430520886444735470105221628651680743030044929138091139571409699396157092562607942043440774765368744886951537078597794943888657547571864562741539720091379763739119013087945904620717861864684820018326609785582255824127936348254182890464106746449224915857469867771094675765217374472804418859273197068461889996573044830132601985755099900215635944461111970564940568455335819928395638493219517687817041982456542380342652362788004471554449296704153956531077371180689155954530875653941451881562699664187230744878976489309636335900681802416317167004257779498372509005163440305826079586183083250807910766596881168380672455798107585950259487181659714306311432319842864361048594167613183551918734048394802401545140924665844974842528418213368715078583809339344644911784272146364914471960726212600858954737821964442699712667608148016876074148964631304611577734094228843916309151541185350909308418808098721365851551683914048793389656099058176415938977747750978375870601398531052297354939320763417683103571011822152417009744178927441061719528056430287434549719253586372815900904983631021300541054498),
  (26, 2776461879102566574754327712098361850643824135105226567252858470625774578950428007595758443267516151271153544495618496179209537446351152533364182023692282596730601420673919805291399410752854719580541197728893149877980561182854108669799132852213268353128122194604819289983151298103965682972806067573245485374204527698250800952160593018863538918524835082728172671193849726021792979456007621828234657899490091983357677598220773442859013763062063221070008202550201024185376592530083251710181888219957177330586582637852238631259844812702084894970949108306706438872336273284359352145108631109815561070576625736726630914810673460284956265643171551268189169999742141077483026914571092201466398734793119180646397742890335607811852173734352055364859568071310665520032284110684366773484245739925143727473333775769021083740197076034345666425995560306212924619206261378494998481763003866618561653430865933688391241019955285380305428882201460768266063547668482141325829627009170270434113059076905498382855397273877607803238237305029700403403136415625974193102772369581093484603384518173102442307008143973696675876093271394021802979375943307808263338096951549792248516965142483058462129831388509242121294099152504144202732142797698083235070430457549003241215402264178120715258786955919),
  (27, 19265574408856218819282093701129911935562567231483288107755498951797913067718688018604269316069502453032287244009812641103045514854625381788974607216984325254441320299721933012424519671790495698457432096934362602550112789946461334074181746158709592075774876519604501830758338805927302714840275089644339517741755779373479917493485781081969796724902141931540279455420013101575959715001383492902427083626870814529848420413047006716811203301023723292528176338273351467305388748100519527002790214864110819848070068323938507356386393721593650094918708038401320986281982654159581078213033123335371151895543647368772483343167318489790209080105178928949366770773194692165795097029815162968760689034100187682458955542766862739128972857105147735428591595506131056020703103851154688226237103341431810782227672956589337892734084332705920833261597296761932104971757849116522765336713536202415027636053798843610153228219770744460566924490732414501247896903139776571065463082006700990003682497648797081208269644876859586088652239705725333093051533605074998402558683979586760268768339122197824848511880914492533296645949244649335082340847637298613956641655642230649815288721918183911130012088856433061776806211877147428666208148084324058662671882920527553252038988047178),
  (28, 133681776820953277579849706047259524093791863599849853622741742294430850972525326411813784943204958003070282900650422971667220509011443845995412666608019684931616299277099366610200542881321114274764364181511923266275859022525679860953948055748044384142244880057443707879359072733552056638236418180596312483363454878961213292244703729137288059825130288014184182355100016661422856412684905676006048955750898391693520178897223477044799268799852422717907190130245866415699604187520792619596870183295449639782973282962033362658132865631149260324099856849333809082976743563649108386831903822371320958161034179106059869194065716032104590671627224006614760990404660321320913629580532290800375889277506568985482720196906449503857787250419664227499039012419620186980614860481674276744695442058966006070389911684578778885307167533399130422818807963451332307692897438913450598656987418107876995159445413675342420819100597642814384680959233445180064061480472907371965077113964780217242028473704193982407226544170033011910428021998753710319555127645659966224110574180934486443778157414851290948004574064576436511850870548282387382987881438802306135848603465940412356334449657576379225147284171625393207972628820419882956193630366424737768207041279705),
  (29, 927603666245915293887464117702110591316987417665987359049451528025343598614059445090637710621929996139770836586623012985860129393109179164575393069420224783385152597667538906964211569674740633213650281903874388224059222761304899316510565721628771143047917461119042343917046576503465326826879901016388304518147693431694805990315788124531720039484600757874044272371206224494216015209876501272302716457369590473973776453565236644373532356592502493781044551350701509198253896556558608441177722873063508144226242045410695822953537300826293121640994183308142381454685649157184554430233952004541899876125863073144767094578351238563142001293562308700414921198090376862741006351077643923333596437363742326242226792769682377115417143456540166951953657062612916543462454964215878357911104673457208532224569299388099463583064827622479704068831000635349739908722042098884192731020481543641671378339763567170780605546014670052146477102592958794007500834061454465167513029291179693616269501625126595766934044415843051909902472188499964545633186362756114548558883839440299074422311320382457989402020722815831562694785543802300712372701148274790815392603504005922857256789500514298977512138605867061825185157910796156047080406979069175),
  (30, 6436543424955776900638516381838989262921159328477247260833168835361234032439156389305261061825273591727873563562468464261917946051776480592708294803977267083581434700849358579586134765341586636263411805231559612615807467506631696842100181781071367471213460662794458101618702149390830059647565127112436715622318363664982830985644757225341547621879586090669052653112516555421547783645952834688063073887810741184226243906226335844452206822754518632508379689721231628063970683301267070243247009911326092378979095257819422370147078101793312659888957951968970577162534786908337599337555248837753316923723221882328888282542431575613155189881721524530484355065930406184688000111641463003938069665124516390576889701225804980054011299510430507435725218907309109160116808759299833818347773081299639926426470311674955157638907970840304837352822136677999455870615637342126216443736386313134665446484809573108024139125762754232170230354039324669897483914471124500786469875386947543391050318493619246021087655499078268273873148370451108209888850109240209854475805865758181411879675726562895783173659605887490411303537250859140990979458052950260233236563688069385269666585850673229777754400123937002937552027326418499),
  (31, 44662491947898712597869427563475537608244758209770223090674266346470007063823059800407261272541195823826650275764323637949039282997321624730156138370264540785824759245311190755989713417181888018074927088310178804321529955582247033202699820784801727884355866904713625320434835293650899150377064584662026828643934200395572236276154969375760559138352787848760646314052273502713607195411095617910475245248889540494765957814972500711291659576935082271141054928599493599640507600670146418984112323508646311336481090028333206071791770148362751378629572100503335216871760476844512949533761903644650460493193085084440037847189125769811452144821740632337486064807213091519960361198430068704496314476554684283710456485539753655822567571801551118427001032782313459591392154513553116754410457299560211584374834291548451611331250588061351563791529306777284274285994068160597561440362346867857866351858626439543917185178786203618724337931668021109591177581144096484347033770880559453023323455561354350159784230646053948768310243639478892673886985347750578110296051506027370484324358896576163815914631441214086933669485075697726075950662075110475912851503780615507682042453603821980734834174786142681),
  (32, 309908293011777699815445687319925704372738258221574382820320081781579195088057366605618691042819010348148595788961991401447011894840953447204901163667303936425811832791451093608349536675785446247277626426901976476902722673954690396824841077037507901441428558729687749744047452592800576267008847410847062952878784077059658533658267245538242525183098523479263368620953845576874770819928569238171540880069033300593500545542177126106690934061703712012766533555475417423529611392986726028178746018803135024439894230000276526211545532447406044048989850782312563091168453791171161468655228331700809667622009048309084732179805940138221764044312973778125881312729724714236799120402922630915466096113897512815744704643956915487825246953988216798119255658913046147048884780354800617186293127587071093700783760695693667658539516403595481354029170811958051810029392317231908955496209309629869412287960911499276456949668503863727163799496306597831253614675049705930694409539550687951892088171248522471697710333825440506060493939290435577921275886022528761538008374402266239638697847841011619527632421738534461523565981780495889984116986528415541308994975247241010346397599270191824),
  (33, 2150420764807069760941810869674466901731042611879070484109576822042364617203884560727721126216271113097615864791329705531538894169133758214752925754247048877770625634858110689658552006640629600254531034465270139214631446841381949065784857939086485855778683178043989521464008774694662457540395267894987564941219903392187970082293322267282941590306510777772600329480729551211859822956943408375631341708005075106580155687012341782479515195253952650522808661945153723443671224696932511529486025626081595958592241323769746443501497248931839251386697964446212912256157998085438389711465621142067855565368138004048603974012194253444027503360619515564830476571431994430465017116202024364227274352663276213687655594511789564530686479968532888460245816465030096983243383447035972065366601905523823909062306137104904376248420954592589367953351150033524158916015951227279733999690183947629469559857257613156646184959751724125027067437534559158401353562829697542514763963098007792942275360344940637215119167923361656704816054325215460797577452372833998917332873790968312464341351570257150836536279404490033492697646057232150570554483984702059391731563001547245816),
  (34, 14921541538132905473988695727385055567571879617787773084688957012361700976690613033484383860880080984888709653714367647574133347807597390331454053350213963490252914156127744272656982648698004908343017037541582803976700017047455564443571204555536267065694029888702839965362848443896036098657988620200292068773041648998355691182440389548195225377990660908857195448661861199571786681309536720155658307441853263280235223092294530740117973759128254999492899682449960403115774791499753647439432833075967613238386763803859994233337381580242821467866784374450215952640192191164482601078769917756683301290908980389105249301973178903543145508184069114740820443359441740902255510876257319040389656808281556359288443814043162985125123154460290552909337069018827738841831387532013699526512098088736182463834484697295391399969415168487251633084105975033125074280691527956723286385256567838678083077781543350744531445594680768659940735204179438878251665753507327333966470748710879043555065845093709651960694025533471795317813399734224991072689354310569540406083537473349185046490064013544377388239248388981299093034240860060583283091208730847044289),
  (35, 103538993614691843977551675791676653982426303798488917590627711398730842674152488545351622782197578109426197940150272974126823977813494965729807487452210862291777060806244349973739173675149362654642634573629978296694322560898171665268650943951349784258784199931183705530889316749885225843653929023550542274393319807074383651452555990285037544226410874426404125870014840999420677303590333787763417306711120778541008275415871180617731816592575027863822572460092676347248623127391282963520795934272058790800164801198701507379974299714352034780221715909419886747858376242754622670913693867150719699509386536441804857544331333525651071484974946837286357512340308936956911945391196688335323345862107836996474452126907543279971155324365883393690550495063714414725116005313762450252922603788769842599953717920868521339695834800547493176732142237753659151999688957208901178287847117860821316104107679455522986463785217171456257269958162240135523042527168589824005436789593865379061337360773763539684288829579572005896217162183391995839577552397821951016685637139441786436174827311945818605955631020345537361287897556032747945),
  (36, 718446091617703409262636177278924221613281951100154053391142986447964407433557719297617760115133286041213835383406030721963161428737715878132950114493470810635733319512616241054134547862476531478018781722406617989840094971107391452892384754781115777124446170809314900778724497424312047709744032974359321318196950021493285881180048254121091635867099251197439888718786680519314179854513978168990595363813818564314035278193563417693416614761202704676995030499107249227060010244256724673047329736134392153960027949664922360454904534491741526358816726659731828689969412294209029834291811527886570564161293145204226114463685779352457325585403986812871726786518090015968295883919873692150933956614424477601735132322233080457419458646802486427022587392094659348994193150541764640325035801282082269787516276925247200404271051690268931899912003163186975421999070189515376688027627011212487582700389120690398337558490945459215191556108024451067146040846677264065843783903866436600591355139776856790531525098987840167729564680304864307895952609174576707732547127873842071989667243650302725550359236418459267292),
  (37, 4985221205647081604785107113433340741423612907623612396901482364872242264714336775897075718897870691912820392225069139475898040545152476655379857928256612704916841886702502834669002189746870980298775548135882230534760050428005164764571966998342929669077829402544275118798537784560590972810338069926557071472936262587299457092380345322591411871614701537431679254545293779465424921260031811338733925473757013598089145237855865889876969626017581616542131450191099525996651272543105548559762999919754276267749597064856642509772362362393857021500042068546114111296660943619594466795038996500443800143726048320363169172070627535770891081065178160192737640890426963693556701943814668797971448506882262152819050579882655303402732676552390948338063494917619328213385051761142707545413154628836622079007783989258411363294104168064948852613885215332335941887873440988234191770456930600107006574580125258810599626774359151546465474651422520218218648152480312361943516249551170869599742031672340387000591832614724976795025489333264620600858378066827899337812404754023462748923356337818474642070),
  (38, 34591921031862762039302815952107663341057350654448452138984770758261789328440074246318153948626762893709671188639753603124189329371037280213585179533082785207385591433829014915603649976827591146189635956759254551753459246323621350762828727475755232908361654628269357824502013701283191993826878211054930778356758487140674114530772016384113662889803840014774486198355800129344849296999947252528690747126196006219819063919245867239696087317845555432275669225596622938602369582300860924025184595023930435048770823513757430446975964926662283271859996041304991585652494565097198934149336604691434559206677129328045514296865209678369896613163804172183545724241349508064609694904809686991734306811407285364422943067451946477807892817144593441198269156804353255929851329249152760509079454220174442303189504873871346003610528437540123910252791041766474248569902490256517440717191168983471307345581322207400966595222860690895156220883752673281107047045219279947971769666799363198885691159606858401298719210510877450628341834827556890330020917076515459834811161801425800725939),
  (39, 240029669974235638189876098998220402253811961069390340272772797335500964874429728820244054062912327584649345135606042601926342363834764526694044290393424804591392412643104468278805917159005913706561049474865667657467453156269855421425751525927069861882561604273948767484597157756997483826882157387878505464421830973834845518228497688802741534907495099695117884010568854504993956382454112657093619173770449805135463461459798109544269299265260942110261779951328731595965139081292389415089371629952594728019950734624896903377622192979983901661869526703786841402303739414509668671796956530241079804467460910742645615385681804720505994767648596184675020563837610123323313097830237321613729695574597186516761852714736568277940115646505364212575255334216851532363869721276791641394641338316952654130386342073460642494983347467405705649488196524972841802508137194875269152184068789279059449876564496951840605420112899683478372729359833905838097812606526062597795922520931187480733388811041926181070549736037177103442382541073554904982218038345231036045793),
  (40, 1665540414834393856618717185864077747532604943185856581017957281912119245086929233130301917895836294688793012882196541147051990107733369184769221504171339588575801436837599820161167188300975177014527969428721102307091987850115996332267314789161760804465478781168159143746964077335503477712865627025999358100846021685464172887439958934502839374915816603391808012744401028150664378846302403673583665103130284582677364716883707521282478674050104800249560021554220783369497196037087037042216927930263146621834792831817633034717823283879640821833388592389695224368598257064062051763966261434195817607495205364527914135063522221839400003953000732379728811533760250544180313190432367015228836716364347610016342186990411648638665306416535355606419366764866100545828130958853690773260792244314007138335445096245688645281577329703207401143124184345791030045888333707309636296256987180903807282885143645821503798204492365012450892268101491169568954183033682573665840463736236890018703055288453598359727284277812392587061989394712300041437822),
  (41, 11557008223532350056568899938628764807524330618501383059863358795921304463724104549409298387862148856801223146839657191516111116310922597433046848092488882583344246509672668383295636569986806500753149871437061624927588902016389031587949025657122208854961202135120845805409895816827488740718701055878915546915658455557257086840136105497604011772405254952980620005041595339834176204095518535920430516394162508031521892585788474446997046356531761150382834645649861705022716186224051484538894418065179149293118160610749268420178763564528179551886319901619466165666553738643518532414702060255561713994368580000051844943554886768992648842019108244520296160934654073016258321953964301162824864815726117531842439740235501311865322293106684280387342315411353879459219335781461178996751089374782319390840563827842844076710607257175337827552733854390486872480236156232163483256570798895617305916289318490739067048756674580094408143296892952740662464831782537922403723062558838258699123448923623708013391115100393007622228671),
  (42, 80192853937544497070755355034977764567332469857579430914042949597665894674306306118078531344893895211519605731545685096675964959114389007785446893831306199627785303369036040905759415079178512464280565745331652944387437544818595394998468601007890018038217668274457649348868540213756958252152659267674415145372852392293929619476543738556074778781984708386424501744272438979646642305641041185432500978570521724312345896015750673068107221872106966876953954037413394046390742106331366855640515857068047732430298267918652567048768662331411572067540554187356186830629069029191243420592144866981056885334860077722075267870725393259639746003610025732103788715350935453052988500154515389152232062891635538292038339877242619751833459042162329178221899624491858164316652350736348217233246555197678674629975788248007186558311303040496940403237308216282719562640176291087668421832778454691429340437924528350510287181765279070856124592174380637793100636322085714583454561236935713298876883382718198291316065928),
  (43, 556449705130762159121266003095957596050713885217259995608104337566012995899287939704327267482378727594768745585622884597351891934281948001409139456295071996511074323647239552171565272965451074559417937898148957254999821502435095329417862969412972702549276744472863777079072141808502852314281423527325507319361171071684697977030154186266920782924582063202969451980622109783187750281181251369341623664813369851682473180939382538482710628611906520692457831465451786045857594124588593623770004796265197332881862028499713351683141025499978844150816953405035142228868098797218339890962676892843783993599454375290295214710392052042434708158525255218967996181081767426420151517877108798545896871777762060472406528668470147935153598361089871477950643737585235061496979860196900844893048174650047979890485999920262438791022877257081140553251314045001011189261492551148274537301612060075425753673587218642962383748354178879281229339674810584191944092630965935545238681720776413721389082086),
  (44, 3861145467134892426874949873815154839778585790846000256456999328596546460232317085775321179891982229456389451571145513607585390173599358800772601437858655180886037806708137415282177053259031057921158408124408828714429348136145620430246509089931708692071721325585194666666675976655546741183121024359761302246961334013368170944931083185148147123302428954212824863587079481808130083599522451638840824540749592706013192750397085826907774054857756071783088306050016950692126117414527351542068821579191531136096058196666944390791325793787780364215980669666122214342675865198391359651335243080001337219741884341144537077451429820819597800412370885127389462913272202461337114082707107637088361960438708188052043812019024827456339621887725445612550424323109080335773977161795626599446915374179269991779008046149237459678231694435673923972146154969149107905271518124636116496264799203358204731449165094738100452820742955957105278485299487669958924164327981264108363269177),
  (45, 26792078741419563851069924862668997080778707929455410130305343927521167533255940457662168046120874002080458221373212800244017173769275764324717731157690106545971655607346948868358802609032622543548425415237532483632369421953558342376090459907446969441657161774807393918969942833278297963597341023760033491423299288158697078282304086591233011462436279832665266346685607873737999440328016036179012330319738741143057099193032495151046451375498170984560248138690997007574378578585059758042381542899353703137211789977869941515156454303254220794287089585689109232596201637638135998764375909414959210743621424825663894039121221276491295761387984187239072176992105684254537481280616436809948220643946206771914964218354514297230246443936280724840726536564728157504628784450738919137339509504910405256885595517620579387717665895085924290533616978974108702763431701787157313092270479041234478461904206255410214430827793103417255407598162772567864592090198),
  (46, 185907391856929301821304845778826435260896080817772655604294359125728502123141356006367108145735646053263135820502626223773049651806791103422339307800545259829480651461357687464745563645430899682655815252732816265310479120614259704536893251409315271461786311619441382479579476732500036184886922916067431865356018912501988498133698023647185263354798782077792672918765215329824429875604037527935057548694655196629845292181414995329407218337472615493153143439277134218201212431905490322175547521133354698780402463255893254872764021132972744568194675760739221343999202254833209174438214790262661075017087260858134970341557802158855995828395354595716906719640764546664595471362266382883128865078611445193868635066445440049686495024137013312946207183525522447092499050440122760457377668152160994496830798135289381338694313786436258048686930628395906082962342713269830134542668929733999153777605411145450522967488743136317433966599763),
  (47, 1289991668012015613869301535462395556443557251776294364555520747806716211904594112346199092629168866166826716719153754544609597817845694597844257557738425889137290487403812337277666055751418084263440855396576386186051191410406281980806326366340257683698329919008032562633749221987998772271036559934154989919951126205221738805070355762863801948811945309962012233849252145229022497025292432043402966866725799099036621744796325485658114502616072992416601913701347593918213935071164777929241484330910287148474801638895493174696168958996095064221010411211681927853885251572643358257433474582205074492598245008478645837491460114226022575203190826276830519283377955212599991331133666293614562752061851720668786752936335528513161372288483195890303321754905779195929414961222333454542690323890677445228285355682060924306231015475402926140292026324234542655014715347273656737773875338317737769020639332943812756690980752),
  (48, 8951115321183504805981499742983453715964315689706253291426418196005381942663837120582486705667624988463359823059612708895317629018225763501383071723866777483145551692669270257685131509054496795249137183165866483530033776957207345529761999572327723520733224426761562957592670591782146802091325782912338037811880098444583286658700270351098747125777646476985869500388320693034324279279696736022067341760820594671791142186345239801751832689159885455618051638756323915014949901718216617046483906624484448552544196924672086282767053118566741059202644531643004788339210352934780287487824792566912609909396165762784612971740331309057366493924194359375284424513013373849309764394441112962282331987143290640403809163166178674797554832190362365830191722162141957217752121004293355947477449438015150077946779668929686004214045991204777064804201281301198366611078663806800928195725687972561857717557806385),
  (49, 62110839535859471163604157237368957856826251418517292789277221657054017445081886083685598332142226148580063449251584719988943757799804199205493106373651109814213097212940779880810934531402757929464789301686125486399573124679752234088114751649824354312093239838382270738753310059050140790061927507456255760988791929288399479813098694379262640431243965110989362956186381882782511746407295782017687407647597429583107831442559982761949024127097390398821349402537631461130418456886559064353245304636454216703084106071286404542578972830824410329435796803417119369963995835873420313184166792919334538015214620254027450999476086048210883937448015563009945987270021304132873390840924927359300582924974419079062485654409557493681064569831225129945816847989931042670746841549154903615107565366666466796748331337323851582842016082708060867033728060726163102847531242482645270223174360886),
  (50, 430980525821935350508391484417850197642372437224699571024581158820274068874708168701215127717424376758305720139769470453331434429982059060348292325078861045611469962503563354185788783078521281238679740749485865868530456637053752377359379441399723014770490463481302522087800983409832965202382137033449419900361107910167324973145893404740836724409052045050373001931296762233096851454751229192621055275330439429677515846943572463524849331004956983105606822615985933391867813720134847020105747482822358137445223958424713614052987057751455621846123153328215253897332360139998809484882052426096617536924990694297547405251496047817045800643370078090936077531464605216143476439246152959108156739899885154381031661451718273698923964382692521985202256340991472048051635431068084067618123389096493567429444071942359971819091747740231883464516310919664272069944042027706),
  (51, 2990528142770298593952023568562473671020873167665105144450497320090609383556510763475771831783444953741575576592682789954170576178687943123886091326733593851684120338743040086056318717458399162917729723370128046284994007413561662770854581849280110743716041801439934783215396912783778654648852401504844058186102199439106322203553756752478345856096375608356903162929684068755557619311310789120760812881428876564540254496493326541756672593185678732551493583006331241940017601328720543659298050195844535184658516988250559518122452584399837767829999070039299641052886735005570105047948849282870880220077134213947135684340858403255077815366115909977555286709055454004317979665724025898786860593843072174378254243826528213211179857846769991256692928734878888606161996274677390585158212919019368205027102291145370386252179024673651703179704930682332),
  (52, 20750957503205540378585446278657382633274585648207987183079201668460947164711768716877782827117406745997416995602144499814439072770914944926286318063150128633909836576561608359517619440945363769709573756205933220338520726991943658005676333316272058101379604179018958297904743641447805516395596092247112141091762025516943405117472241488203224668931263174015069645644938897686205270358474769348505095725254939677974238534866370026262001706349397164997093001167724204330280523994943431547299608350553705705586278739887468499934777724492429019326504745924960079413632974613901659396515900220223146189086233477824028708366962345251849395803323884112783116493322695887504130594864537057953223713017076655623724628794780028260522984656868278932971956177595350534541466149501416100399104024819215190847221328672233187979855104337439),
  (53, 143988692526565682902833161286243924505130872544446428195700461088205186612283287883714897364143583529083037736513105323416864378921935096403707389908327321886627709546484197001305377359633561832070829188114582621167749483345988096636915275861806550720996822607081737458851380186473425873608519720022342143683096400596507053759646842950576140889036198961264825400046444190487686295342516907249231532751454547545979007341670859387919844958192698502740620912333539215263081991021212471549223884411623088359402586472811736449546901873810259042688322409260652422814667391022895500130063562178067855570546505977670405876071082352631367808388803685608178767120500324291182921447796443812038147967840076920249234763308260802153837679182931948481942753672383744245317025824172613307548482381320846747856631432644041),
  (54, 999122260753263523307523771248118021702667734722070743833829574299391136594600018837759368918664349710569914677048176155467617309791275169358212324527788974594760089684763340866362320384962841300459410241833654678370614921700855944684793365170065148599337434763352329780243715742694502491969468591383764040564605874749856128676010135613047705541386630807866389482755912158061938742593299543593818840061279137705310034450960248779241813591572931483147493279779312500931176880521511449065101172576236365611718758351764268423213722801118682241951048109795938953815175381822909650847274554860724547332023526170164351794559992690823842517613245502656515914419862777988756500088529551428454988682487126692699196985380212886295009661450525939738185589725834781022888606908587758058550174885832200),
  (55, 6932803364699898200975560281498101874798864170461802143142802809807968372872638503440408782726675310918549951335561507495482628793534620759911569594785127097357431734537768332337696391903614789543308128417341721167623343299793223640277084389703936602616249125108378661416760354410724258686092746016794799539192854926603991449565135676659618554161193222895332201547458207290603246020420775613793328849349265277860870279282197771851324480723860082512242170438225503054751482081422468752298085690165965205926513661787131924976101514059914509059280965086700062617665555759185412849284037619452004630744847574242734364036520452745599354070574474792714544845659519839746168004970685122726506494319031475157261839602578805482894413576828603041276302892215614075207085129149683222),
  (56, 48105987002214554405272729574618821783435801572031824149833126160945674895654479724778092521766220821895373815891486914432834990665658139953419067930777927740599567204291036207707333776741477639859084253370297463943728372521258750736744150310712575637787433304402769354978288409550076424938024852161332788053601941871059039412844449746239681005156930670150808066192180718214734431480619900761242256960069296915652260246605261620554173402115839053756242104187480501998806719417741858273421738998358698074500535056754744069047911005505259528129979562833523317864855589260991842590736938568462269714638605249282554082589956666766460028522684101122588494533720409048823387324225760627440760702480205088889015998185945578733002350428304237222790704902714116448),
  (57, 333802339964028283055087010092699950309994145897664866991598398163497976601624354894019910052451128915444549485771097209209487212459932413529844550734777892751366053695217458708463245516651311604064535227461925962724160056706314946689619090910982887306867305480442649055890434233812284599054693826699680592836560995952432909971987060366119122404829230772980283127611173402006064310122527767088343106085453484017257068682011355888749489119159626752103275581279390764558379818570554517738771637445586120628589432236891905384961034670356288707006600984371375891908963166248814509281647252403621132611832905985505183317172489827530010297567842274731657338819495880814235369017697986311359024111658202620990008255860044961420884774731649088658),
  (58, 2316219021796704188893352750682375951902723974172478076847221096141215191654308946967861721908696665549466799663198729309538504930515368832647109629747658472877046298791943164692401510063318096581424801307507767406660068689969576193656875735349203744057809702607914900224544024705390554129844775620588698624205324302326571056873916817661024176892841547041457291634312420865034787601469613719656109118138927364758772927582792736628113631069475410573714755127881895195285075398462693789559246032550225329801988469534205515156720384300832699693699165133587770429834158225992378503787539514140239595561765411719317661067880037698320083550830492966655621490059481864966532452427841955965882312834907371055562302555925562464858),
  (59, 16074495122563314857447688630905012098369161028600008237631598893964497348136405252525371625231156235949599805572970940204433111886049597612205141741569928402880202619664934068085023596094408147306944809136482964128309537224457790598821991848372630778547487464116733670672924295630535137730890312994904206223771938164343596875093086612071498377256880045679047563710086886759921570532182038929358895006281147042768283014653774542550338031670670173797467513639527596085703942697957666714279044681968802864951334953966695634595625149517628258981165578189863403213407451448116818509743954093196952736910316870266024173047477948856663798165384809076975921098512798576535819695679864996948455394048418474104757),
  (60, 111522001976654038861803805717749608750513180971237513394559764419879867086118081348375130055950098091500668044119764150799607952808203920091659083265231408639130247622422797190103134884894128028895791820460753568147729430488115041425912698370395847601343089044228730914740057531584843204204207437368955629265246711755775217662606142954748782514791298341027523901746623024965469129872353884421920743693811062169809189364349210314386799783178345808530502265478914248498584483532865096508295426405091093717042004880208043998689290279374279119046836847239818551661168389162642853953250678129802326057435949417646352578221713993390055269504216907987863379596464801823718548140452540072946333),
  (61, 773838557787812132461779043285038525480454394997036848178012256398921433265604942671370905399704603909424188814906578951361997802568022473300555429754143692569658383276204183056460979715072711897413646002642838721880966907028754185021179716986607292753649687927153209599704698864439923032789632119953216671760635847998853341251976157324241768925555995156819152433332406387367049922647756849574092757079315664975424999297528115735623622704977287038905623050458437506056359498326973306560326556890412746601994288428173235294884930984782612995222069134351520608685505664002364085138814302805538329322937956651412238477394435631080304960118174941529778715651650080821408423),
  (62, 5369571623448689330247972281099105773091711089650402886643294609997199390864958328796191181126929892932781772242007935839349806555158394423354607826711054014162711613480260568168596150421157761493432357873145918299536352424559574646879808778165860645391681388104993334227122749007285398290529009415319491063659213943055073796553636766111519010193559005927451671349387177266461135903916240381956378084585994704329167214384955908363884498071468534033427182247067971867817153699259478891188629050319851988725642429201879387652491042865573089139994344693316456199552690919035488294769270886385018734168465144940503725770120730502715198358042345210696679886),
  (63, 37258971264124495455179955055766081825661055796185732618396956133800043904536548617343659098696436205276834070808561410906927611122171318663160689265821016214078549791222910075862110447670355947788519070930023260507948910318369716079740807917180782042802524599366922226816070603493855274187530124001976653167819922543452337712310998711047818593174288552915318680140811712968668269646480121459498956326048474295688867768188814385091499851430743323094251449587514102825504116306833812042229551116083378316703277525030347196674320611500736460309803091617293110871277489786090878871048050144141754973474857654196472580411540365747604933408),
  (64, 258536190541457464735467740737744733731176703576341157234253024040152261752272453519160005161629447869343338189047160318190097023485257899895151884649242375164185001809443616213647873870948403569090206720229809793291951604333729361064986731484696677621041000754290061646971923152878486051059932204962406861467309328711975181210739268836736255532650257228156715685606296010825989514897997345709748282447262048770597814468593202148611064898874337998423590378493333458611371912589667030941476355553068285260601188916790421525977028103772893764463949966150260854270584634323190528554237447847082659329265403312762995007811),
  (65, 1793954211366022706562690979715954004362182456282750771231900220966072895750034612496632732669321788108990909361760443534322483009674694888782890309116221568120198875173936018091753425557445120984431890434590150839179613166208563569734010251027094631788424924849437882515325850814966392705090508115212288564195584814702445480671343809061434861509954948965780017604976353437569104417620308092867965343318901310128412306591636071041875036265858700267916967262382170592793547731938614879127543764704748078894224566135957799298476067441709984978205632737730259491704151986898186788956252449904481804514403),
  (66, 12448716635453153841102901223281761560028810856705849978112292240701139350863252748038539910057131232628207837520240576728927761287551893241676055438906602395214096365169056800970429947784801058470768289228370475215586575935132357530563559003219483226592082412232741348594959835686231374459573976597288364896612434494834743621809816464238451646292951089044396559767687858518026576360198894403025178087333087423184733460583307654235432334665247933597075963277481788576211750912544170897977384453899026713326031390714365299429374694815040006126688717174259199978010564631510383749411664),
  (67, 86375753363235291603244318189980523336992489112827509310134599279011374861226628275149599935062485245383010572087467209094432832371292244976734003285541132232715811223960360350746024454311366651211389982751844853614030912410280511796944846853318011654666362401045887786152597412295751217321708095245202492337532196491824292695311129039419615767215166896647219540361961972018370456194395960246740237506080489802235389587563862494616004914741489339036806319364349123056752374453824585875172291928143343057640367985076366038405079130660179853043552925279582211511346556),
  (68, 599287695621642467904574518018427210552600274715329747110393516844214822401174400681285252441966709851053394226283757982587529860816730539208368610308003947932090999661247437246382586471608869202917724667822713517719224737190344803283789005840907947765714231198785264686554108728522492102478793124477788798652011521880522211845344253865342812076169601015260007952456707394925436848708505251019562048660675663055284786518290639509110013074628965995872986162851076145517755012527175843433034935984329515678723618770063021320609538595434949458603670134),
  (69, 4158841246781533633836864772308762324049053575819663430035882465742126400109257507168560824342056613992181837735342385233435752217308774138868847698349396655720233891338325541884136919233597763965352765427190687240408463511550186725877299626564295636164291719976849514265940327464389613212047984779888385495831463623266610186032933034660604703764808368638211927348467399253521233212503675976543921607867588062708833473582921582445462902407302178052737714736684481074628391762275155191781614142238174785544199670783332138195613157185),
  (70, 28857758174610320902016560469517745199416113983551066478093923371938890912433990894119882804865690598321344380250903945468863191320689764194778029654099561460507828593742123509035183839394157840714126669892836397690265988055325136195407561818931492030708479467260902237173758408075076410299995212146627052444347322448088018807138807861343726938437483550461312949499458272975902550018134647535110542341942886982407295565969766117851025198766577519842477804899708512302120654445514784528620040630174569929335160273138),
  (71, 200240879106854831864326987444179443598295998759588239198893613269794731252463997013311315843941138287605696227630036259646149344562984623054935344867936119508183427827667136906588874311410628386065152693651647553583841186221930412532653194312041961711871994644122412227877123277531785972999970038733898480973673096276509189726598000843785420337808501661897653747785476341101113787704454730524656243144294618693200596147226633391188392144037637941458248885714754510336756605390492236865251453533128),
  (72, 1389450514909188904016772674752499008194563797437844767540052463488530201070962690857735490190099630847858405251646996474538525118463611704433214935221465738844823718080683086579452708198735839390413030995038435617920695726936556174363991625503898827314259275226761454764033500511070730607054800204134886797094531942056272296427755182506136426515466333959195080970002293914609600630208682933476567416165098584541354320507440342240232016805449909136480337610221012337773147709140764),
  (73, 9641252111134552946071276454483242841356546002224002801497609146700525956885634776962958343319294330616636398235690217266822080842170239473312631766618558729284536136494648387665875406089247563011943175255678818420808977763011419843780568071035099774827244766358342608499828483798432648356267027165399443074576080055633137907767751886922773254401913879245997058200221301655958274402375441121587762719896130042207443512505138541865223696983442920577522155355563408),
  (74, 66899608822696760160463395514267716419984188810432983223187704648095475068582000993829214617309207330225002404712930969404089630328468945385690462246562595562331126805907194797861079326271429989713645513292022397226342988217104140172630502631068037280224870515729485118373492063841157615483500732452762288677285022004443130291467796843464328273867090571142307263319613520055493932474144475263304031061426537162528080508081069325466285079438099427),
  (75, 464212627395319670506838570705943829615216155682304550826441257558433320306307691940195898295897061509208635654698914891571201309700170269577918875040023456114641816870704000973319506308672901427990406295857367240148238037684016643062979193763950318450710465759384685079546729443713373626668338859298181717149592287672847236064059853774177185186533127767037934042896671660382446065012593789465002747929660594504354757373136708174),
  (76, 3221098997485605107917476330592339355435568736607451153439777378421820879005619604152529292545061749062844507391682725960633062785551541361553838939794254147661882020116403815082997272873589638727350437278450111767720413038361351114896385329250454653882946476053938896791833620636023646893509793441576455580940859050190432018715067959654423260398239370613501012144180255580932145536205609679184168050155100677873),
  (77, 22358042685537702939620659549451510452892827607682883944699737966558310023337582334754669790655900136322034005475303773935506182025460813193066930765956043835246978428414037650548439543713197367589048360672475255921496905668883499363312532212859572812189532259830369519318183773009111540484457558290435967894488614046530336433152545449330597702696483543684837402868045783991644149110540950704443),
  (78, 155090275327330815107723127759873100205191934604354451700984328673493331550178101019125584569542860602064698092111291053153508735584499581503609802789603964248922919386356963577721696902445955215572789170136344111429582042343613559404865862954188451616071020218984452348553317147558176429059130001583410505080746045738657637169400942432981215680652096230812164579792808780351038),
  (79, 1075141141655732969615989501536599139316416785287061778624311139249517976545327250214606659695636516220283070583393878001209469478483290487070437939012509612131437506682837814160928742472532232082048420356878360776100854544683661031438546090170240630226808655320804533225485007540961560316809740595313763092226864939586908761264783328012185214385709636790233804),
  (80, 7467394765271621237524111867930733186631848763657773540035895686166516277348488613491743393524156002496728175033761354765981562808483220330031772443319234881732746806522983497706476899084199662059255810363603179219589574301660004884803602740969566266160080456906145139583895671171362821559062797025176087805400342494593036859524129324052320230),
  (81, 51814976846671518657777455953539191627825167227654464706303188682405768546451193490579180208684013316075064729558112552470080743745689957654838630786569436200534225749397620899585821410753945979350951861129236858750305367242500966732483134935795126304845187309690976566917524203312187008270349245382792310590183455685659492786),
  (82, 359528972467443748761147383503175740263134960165315984436832656918980003424122705588459517434450170444832492095560333863203422834709108149674346671688244028177446081672104930880922407655006142163566783032210507785319184528137675194359197360893663357844468768592073787315732040698858137394565519262772954211060),
  (83, 2494800386918399781881719869620785641266649051779202309856264592797059136266595411125663134740315496489004418405889521995009567042782621969886790231234523353911976760489605271079401643566344700209767162317066872633512482583518686601452812608126790204412861841201970414645958330067399650093449),
  (84, 17311236858067586469284375289446051365267846487347325934919338689608745631910062842585969991989876111793018279615224530014877393666140404302826754675000132935004610362053956730029489743371825826152846070530479857642549257682337629560198140218979735719810377458955255066698238),
  (85, 120120269260875204512936967390744030501170037726003241441737013891571981779813991583025691919227566557734099664777692769708993526185283386274849949315712909168889628861982792271726239841652276534291877868306258361511259091746407984073044260460163593366160517),
  (86, 833420651740982943907216559660146011383077115069443330644521074457022353415819963347616624118962845406101785787006251277142568801860386973062540658742757875207404017397530634362686104137103482240651706955862962215296446283968568908837209686),
  (87, 5783580587434429473892614149933421800929403950578663039089749685938336183887320221618308315587229792843341744254105631849663022114209101353858406969246775507371809092143622321807795797864110092100507972634155993640090898805),
  (88, 40138697813179756522504265090772780335812301325255290449303568793833521648126119570369525770072953731163436850065647711336787875827678948580053596240755861018615872138984347043741538096599681900623940504120),
  (89, 278469275977917190569829859299301365062235066859241276555414551870303753506558783654090647146474886545364558508926352601236369566861413934640284746523642614444826697284847015748774354047204),
  (90, 1932268761508629185755486310876079848457332869394006177379964788371500429364574164071045242047817236421021215829695250958746622290071846424832065964479988898355346043408075),
  (91, 13406571143084780832453549877683388341907942637653014748885935489922197466395507980258151000426934152095955810986785308288983962085082438156915481461954090),
  (92, 93035356709837682635877433493928935706251249058904401788341997295983087923188556670595951801107977351711873176510023450127722127336926460),
  (93, 645656462649394747879713384112562060037191732113512780883004209339250986520882027313567096268593597534193875392254687770),
  (94, 4479489484355608452203873548865320126178292875702137453516871488547625350298345440500906827500876420860),
  (95, 31083908203484850565343312206751805439816221592939659395724199858340151358946564916151),
  (96, 215679573337205119852027116209796848528887161660709352063056189785793),
  (97, 1493871217679769500829777814208097343946959286781707),
  (98, 10384593717069655329242314383937353),
  (99, 72057620417022833)], [
  (0, 371488427276139996836216300617387237583859175777884138505688092602920878204180909298734522488192032556764752464656836557964717056353904329449115395863715355721928919968721604258325090459374881518385792398891573708081504146310134522793791810332775704789124796237563134413969961789758968962024809299112689199780734216923233544081886953719871350092673895242015237375618897076779640443209541871714675607296139529715836307352298298023311691009278817721188922954966573254682031257824305984394877163996859173975964116081320289012281898446595917405576507495670771905076796346884745536421404936758465448005239355533916873765953307036865372494336368113446241598856456887729930340833162398516594639754629907816071248905935263548261212286589468151091211256485200761800884041471925664889640219432083162410217317826378337014161686831076498225680230420355466059908105209977455096197808537820563865090812699019148606383406710193469687235919389818899882655419281067711218574129465880045057534899482360861878296640607714288321196160285762260612843384434600156981053568070776347970271180369136644608469405495108352135854019717325193602914442297007173357902841266828702921972288761726952161094918773965329740105053269168848243995334480568308134238014853612037400499467947941824278860579618348649876185345845342374316866652568842284010755137760753880074977189958332862830448728681806080694127444311097159904424919762036744212696331810247455537751707239661335660734128382471674845093923215007967345428947620547516642147574085559518588095463513285978886880118186682820830645821511606263202126776547168169786260434918360472251148528935799095694408510857182751419565300196277509315253000948893385602744517668169676690272028712805418254991360),
  (0, 371488427275503764286098974579005128781760998814628508396211216081864314181385351817877195186564126172955353998015095139167919984407785273768617063183751288900540722245519536583922834202905145673245491090348541128558574927034973733312261790131884886401495705156204928343580033390644382437993797912913642556941228618754904020178909226473120755397453249276290047801759127728532837488400533474671510271724079525886637434110874942840288139744311602809215504536915026845969271240564350305475239789535557607750009225774552302666668000392478218079434863179369575839371704975166483416457488403237974696959937272600792863269916033488164563233891332229986264035416123049356779003762975565803631238149801598724840517775151982656261475738383363630566098277078797876649760546042032872935657622870392200073541382857938991164219377906827070219145560857574780554627365784896330630470963232836541661645472266054828001848248987673324150848134237995394442329262756809209113058132688224889263159202622881184065815531144610255188344698924969160885831828203916157565878960591504493811143412490927111330921102546545202738227515657843182399656051710720665267284171249355917027814149060073105804893896905054022996721689514931861703658806655505707837860064340137067568063550483330289459327475638158803066350224630837407691301804931975849943687228276994353799477423840859483509647604114073503671584155162775635041564613972302147718552708288383853388929521437023765405601838797616793307616928841419574361526846638607894496711727310006519725081662541778572652357300287624746742241832934126336354091521546036019867329726365774926484210245821578786661623778367801935199253322121372382332733188354656665910617488685723826500383111167892241216700416)]⟩

theorem shearLow3_ok : shearPlate.lowOk (155364287677 / 200000000) 4357049400000000 ⟨37180115858359600, 15939377645640400, 37052486930359600, 95721696000000, 95721696000000, 65262831458361600, 0, 0, -3384649382022501219⟩ shearLow3 2 = true := by decide +kernel

def shearVec3 : List ℕ := [
  10751612496547649480876018992584917174884725788739500850654411140037032042952487694447106790370506723394508604045251008653002935554481000950588332012158378956584643324781476614116944376453988098870219917204901066738381095950528820769860717565007986215012537237577667512768507121846950454469867723168632507879639030495045769499984042665679110117665744671438024006623219858592097989995972956396779073688486900751984105363602454376048091734243957891976173713173976902286798660312583181725491180991885794425844334964683673182959390645284749651036256993657111169136150228899321477727160740878651472161691190590168352862387311399939970471660111593179793488841803452384380853883632618735113060344805783146143562065669495434679103951254773553086056244934235262564323851030960237452480025655689696419787036798273886420296850137695176894500521950305248589408607430394663933036059943925366737682582332475996918048162643570557227410759506957410694960307699300793028976976050020730712684335270082126643657903750601954420990057319998592960830025827958070784472694966553798375032527690302124082018396172631765761463238839301412613522845819608941271380593216714187085109224118397161424846041769544733008929484171571405541060896970610137986593176611637000091873864681777803317243516,
  10591361539162992637576124785212968656809559185543573780199781572637202133597785872869365216704355777539682287731575962953230226437432823980953538382859290475917351118710830966507153243771526193584054680522558818076461220739989812287219846863944268611713125805359308431136117404600976229328459808907537180947604419262218621291633456321352647982253578207008851980641847173800808969865074648845149073125823715068659924965480694866609363944264167499128050178866524091983080250674887592049450826798975820119234966273581427372139110163322671229540583342973151382324606969721273762324587719843321786875385794276260253645672023007261590986397872648038653263907064802524247475787776820116206586953361679980312606429354814211944209453064873842324839993559427295552226932579014890598174431074570480507089039917682007905020289985170625743152717396064757497420287348281713280305122579514683109384354014192172881302928720892575538781763974127438920197512417642684419160189718240994211941248427933472616670237240363649032150469578305436315087247975015340728429385168901651369835537362803435737616891842351286794502155699723637133521798072907283014404062616038043947361926728203124138999649564263241433138218428710606327653943633103863350808226301744938320947196667312977158864896,
  10682010965019312348878345568996851303706713636296890027335542249080078056800345048932770810983180361939511702647293960859745324808733822587712030012661924446464136916973502815618286611918339043855871607825141733301989473276199092468106514375980530570082767312998213106089488174411342389035771321628654948539460761781802853267221135771223398525474614804262867654960257243009298205716476686020812251229498436545023585534561050478875138019936714003608309268204060368544422496586397459250402583164022645531029395570691671575530679090031110742721326460352244088409020139940426572538847959096803293704843920482538825440864519836742024186725742463540898573761310483148726719955154964462114766314527565625963643665678520153618286121718724374649609243845921352058141748913144609756913345295866296683067481037193652413586037350637319238459399387876586423753933421620876270416817822500025035273520955804739692105152837483569640242205876385417074104436011576659822778014891874058309428464054582948125380772309820410181513794235085225617285150916130440120177427507529811276605804207573104783139072197763881327113373438490348583455760242474810659049104661998299340267293135933808688005344549454408517216972976235060377543984223253012226732090497554871809804134647127963827083500]

theorem shearHigh3_ok : shearPlate.highOk (155364287679 / 200000000) 4357049400000000 ⟨37180115858359600, 15939377645640400, 37052486930359600, 95721696000000, 95721696000000, 65262831458361600, 0, 0, -3384649382066071713⟩ 384 42 11021699130718214325955413658207553865909027456000000000000000000000000000000000000000000000000000000000000 shearVec3 = true := by
  decide +kernel

def shearLow4 : Cert := ⟨351, 260, 57, 2 ^ 204, 173299152857147917576656291903420267697141086147901661492570615382644400000000000, 27089623903831096790802139824809007527049407208969081635328015832935790, [
  (0, 371488514140236894112054205636687008527706976679138731379499030735784093729039872667645544238363625435936244544905780746321057055175723915031623904235864474571481681508241971452962863506829316386490857747508188417522585567476800413875892664756956587896231473763288856118505102989926431020270282673759028475418973773258660546799286964256617732917067819051051470677894675818768844084530621000135883473820771858707810227905966214573497322422114779505613197225960610484186374453637867073038121627323306482736708593586684682804438957623612548793512502221831850229199210571351134257045344639130035328646427828929927057844370718097915997569620059346086428357935837913770749498362653752602732573773594564693622083187929124293053401533058900646463625709921538776996848063985983533425180595076275499253663247739513143735425627335054314482470313943232415165382805754373509707966467830960967506894977494442497518593448345589540724611654120261036893449640215208763006109791062322988952760185520588499198892299779376839940096895716261230295875415883246629365300291414936967979011909847203174272331628326102153804064140367733749025452457122516459521845035205969140273064844512913945963993812162593416746281022980561334662682599149068282186539325035080378220503617098569493276160938416931226336832494659070026934811168964614243736272403445128344928524767280770287597938425129504950007306887973908614921952602259453284693455751735280005871401621887957300622551463301826478630305175589856404648683467214698695015340151718508922128828496627188275751918476115921566116136577866736590912883880264186995820073917683414492116767384439869696124555848390110861364895951576968603667356643495398015014860946762469452556610663923503424644214642),
  (1, 2577718783394076814450410726395339914889738095812958761387183813567309448080286203782824196696489093825222217536509724283966981194394716582435582798849580550788295869821338462751418421192918693784057035638459092433533355619679775338521769879580042528192516954660235473054481200087638092164662037899746908167572541848736067763533254642205784228989769335375678506042334564778023716957047125731606085296328917104156985802898409186597120429795638103149692372015493622580135459937130883204336281044687756981044616065147550542939959427830712180523348217859401439012557126059207966221515309227394562885224964897438214623285427256920218940099852821712830692720764414659981853935886988480163963389175507405285849520959551884404335566973950271658911100655361567421064644104299789913778979177330767987264427037218966548046959370202302854708866436484629465256594486896184106807788539589372829569099084846124214068129415363302430152780803336975118962555836236510799843375154763243650764421421338125721793822337996463718860580607946974568133955955630564388404216410038633989397989316655295856751828460040269387282530384786997423100499856539255412480652142973823442909649876892692709802587314567235570444544561331854998928273287655788368450981877550597998849316193012381603880581597148142280890477418648711757431802877845099916259682647982710332634413961260308196659806620911973234243282920006656311859626970701818913368404919634934971979904837930106041595611710662198508361923298465165790340872507453530196220019760625482626092036478393463768660214236644711793630310234900627303675815236645263694562413856091193183339568275021294070802809175122580214294297525326367604025754811386004526751355259504030748873865554),
  (2, 17886520736483761178426179179245776032082449465014449664061635923990760871059696555406335907122205368636987841357692551999537411414968964425971981884611208519154957569889018597629464548159733903037689680615081306666117303753135563835796369033121312745277470748013306386000898505037313923064297638619327964224870399549130013921206542293662277075613712627216132771788806751409061138226991230924458575995645953054599646455945674310598870677985441803325176865363672668173925487376231432158439422285470706115294584643018570230534436242478272791473744025613784496978765994434361306821708119487396716737289103320749360134266587342659835151520135588705566836276407364797439050217084285070743721533717641533998889780263662891139873729014247056061237560111002181494168838963897983750469345668306948892159033949852954157329339165583688019863310273736705232091999137946339627599462108553325758298793725094658668031676208752627730239461751921562937010909986388221516352105433432538328085176420913559719757132585786549873315617179015852795997215175914795323891141122948886749636189759464293515546399578457943906278325871105024161583952590788039134947063724938229956871284034683330743324941373294623535378892444520866035774286578994210863184508194263892191362758773179810016088994857000798941235744982357281065737486550284309694825197125083622792591788539482286943834574667671179525352597256756826199912290284516310511956912102334241131761222704880287031747086718426398559372312608223657937771373534330067139435258195690331358949346466266015262762789649756097112614674270101611668001935103484835344110000231107409326061358694023037358019013501093912000625677751190176136697709094395702973210138020),
  (3, 124112644828702190530305058909957152667227891189170677661200236802719791317849122793213709855648013024975158628695813932616383064114317134302236601234746457308369884058240927159655825161501029186464055945640473180345028886497887013731872151646214016064418163534306687513046264141114520617491008106465083065334660061056205327976379026395353580825243860452537431098473202756948437811581999661068882892892652430546418274403392372664227689565704827115336804447926927325335353494324524886250458148346276244336605767080658151059409729705223360798483643224062199059732014878135267018991608116339542555427510424331358582155530012281945469296256680928712374027846514777730436972993064025562148054889481707564211998758001223773639886440537593297505625356986939068451042792400739670903948342146220862714975477983643707056232726352917416417513674740115015364527244790069053284916301507434768008875888991582346273589030287315674950167925748998264838620365071978802370189095048571045997361463003655869538261307607270883289274916451148932308079009698321567905033266720397850972649676972595101170033368676792700452566690962790755805373161886185615206305232635629548964330689811869775974002458583672368278903004926743426504756344801641213048959885318230514559912249026363947110900770279665100603778006815962967064643857050876002257437839925942724511156966717739687872168639682453979876758937865879244682599977663884420603026879906025621845284402186699646418122263313006137329201939322811270071223649370876588501960214117388713679520749364302073925983739289178620321144077645135879133774420540557276831670679900853565170898183760852649885410091999683182284721261734703449569487066781),
  (4, 861204346454652781879461016229428097399923034049368399973103564698598696694035421289536364641760027191607852011893060997433631368257795262777816641954498354294494824448016345057469276002078482974415690917196296173471979687360605070227344428334480207894608027514919934000632381616397613599599922741641825590383257288784451797983933121885282591361257110906695006514735775727165062457773581450068270478291889985689935312655655992878904700439059735954998562739254015935032589215680520877372968818371568947845997075309900553566189957940107601869683398247372498272642680924811818314045964110567925736069252030840782453692659893639429070172268851430517772068881939641593523466635614922279599961022842588345376567261151146925948288062065356854102849321895637311039455642062057054264328623208112861850216686117426765477419527974152067997868156723677589247565234560134422774767768044629261783533296547010648154435987756364763799809135651388446380311040418767523377594824618689522862056929168153245441092128446501992639403234053246147580989151104474348056777437190610890335750473432023349751815656506802558350957782364643428794478845222110063997567965465381797887566651771822547455860023168874226640791603165304784781222640081508815276028281032248396396061549986911114025886863279436247372358683300839898515015497962288842157567781635240042389550182280685784614480704255153403828000531426960437367427810202419854003147315166433055571194287173474787686557853809896184258651230352536308506837193973703724842604974641501725304953735816209146231370157313645064670136651546266478570417442536158546910580362233763852580036111172549309995418247957125973980528121518),
  (5, 5975806478817379132399596164897026450966098868365915676869970975038651154572242816397626351559147102234483109986648208915940820199396854332643059491647241290872765011860310956275393241909231288645040178013157634169467759824027417587010369210262346070856047158627092728924909342066137942584871020889116583049378092832350480014007191746859379603947650763277003527640363216679249785107325673276190840921182484167109787012652673538796205321522044805470462019538027241511390758885831182098105247577069710169176306504922018106996465870238972920469978391887844668228797136499307341097007281607740014463844881914813753052981820025682318135440323998550075313757908899687436473787781510099053095336337499784536369159304769042540557768691517184207514461851708767675132550759647652766193471071265243997268910137938028306743213836964289612823963515399447789984864639372213430928942976723843632099216406399407270667049134234941044308520771228406730207582095459689427716831617852785187069168094041254527296708601381486951765423247627155091954899054826087486698747790355452322005429814156872282343108472635556968300040855279661858599968099032131195343036908861432412428723199627691507564219425061003419587848992050208721810919983065896498852824142191729973820685950740924722900724477784788491885621219227169739341788894413824865504521306974247802173519932581723510207483666941314769172051627957416314899091659105034543374833095720805480076531421163019400344229689764902188449774365699677936633832230821242025918520446913845788819637046555609390651793269606164769100606352718797259347175067847626088584621328157053429566811951994007159275221493579),
  (6, 41465489124724416572136958694301634951942327306926504013090485194169540677898549241361689578100041288123481307972454427773501057079848742821530991797629464091624042488919848780536121635063327626503525424344701005477090405984634033113373716430735878177516765782578555176094136852835267524180077468772582219304134895943551468518912088678031666187333921283457024329462623329878290723152782223085240409267037199905851327004152128084914706370363071271470653941460776844574338220869538695489855464523395442361318666002065897463925500607048251747805750731186128838926781701244707251826708615919785240392409435332800098912683172242444204871991966558956234066641438075538151569734972045373913262008269608356259094439819416774281017088536457197460374672660838806143798922503723539968707428996923119379955382002429709828748235069779044654846517992441816919827575360648575591025598702161041350258007631577112552063118791336448021492786879666885629828039979284359459847704948609232773951483781380790437813412683638848797465828515669087398897763374818233250468319752847796085552458594848636052131250565412455337576609766673501539332757435439230696296955620825080466667116688908976869531231707469654190480283610210903901650160973943700954711207439392223236183680995390112232307845134004526340944637137053374514296768143764601274235462457898930262324343259186528518051323503054922108985815496767856292437518176292626605065243220912234310592256228450225652752283565600385868755031552815582470702972993306561921627500503314263510539168303023200799295805815051668006871731523959832413625144328915264602277628297075731990960752290224),
  (7, 287724615985440967455285262074797258630656479547736899030737808354741980229262910329730175341591969774312836044955802450962547632064854065604112513800798510303420389398077815745885598232350011053481012688172046977830316815673170763582690943663592277822486254695573776636817514932917337798480908282603517397924261831876704283639812432502434176858317988686259987270258228035362553109826344847041533736808618080293771157155490223638260034383912535844763310719436088347741687032459459601227375179260281383198796266580122042785966135619068353393050082228557521666881240384883076109064423119154053778775359621639076806573370545867206566161641730272119146343187469749083858982279416369087616228979287710815133331233052875712886571374737159408380922164602448516360532140965787237173860028074496984381482432040619364123918447301401194540025534145483770396212673150204512113236660694290399737298277359232780145517857834876039013286204366983329189366360166461816632912708182520732373912805075636092416744357833784153557790702178906821488252356981241090750343708786516174053173708324992453673634382277640276118273124466448708365252043838061414334449037704154835552415768507721577512909790367357662743624104190605617613314304321343744674905305130568309553979328826882308360339587662996491062045870195863707668377141457040797293184265445906256682243749276984792482635801830994365431442023912027233066956958959731550304294435810277277665073774922825735515783902197401542786720728241492290168744099419946144245985340241453305850299877834965045329796995796252816031419060033315946630855506190778855566037797229345),
  (8, 1996490569480713881236113643960047804203617980542254881577329820722828186439061051249637871309872665518034658828332526569310132838358991143204936124595567500457974856723240793994794826239545668037926560982235687568861802873951025232894843664675535890462618420826249354189211902381386469634944658002469958541404905392318585218160152286247750434589411419707125982495198663778707428235401458899935281952033435705319396938268480012386281330872709805782111448927223013208731873598073084725076959907086070840932454905054470677409143264155806451317036521125610704885244767525559046000203508359529399190747372517351816360609391966221462217349582867150984980747665295923466001397567553010825382898914180212729448653582909601789300456060484763811803150366403179285328675905591230682447341043856314695491980983223464104053073590041798581338028260118197542954155297410480726644734383182221283550378395426146912388663983522840115011669928888754473604235771263221967333463510052738219391866648510591660145240862732557847329419723279676658554010165739502834006385370616029209798037112530693111221355161830756617434383536739148726275964848199445709817865949912966073515068671564828479993027133036838931906917438848110826476156312106198407600234716630251720434268289266406222718319772253406969267962442259384624511032600690374446644701479924073709454612254030193343402351882996949909303040060097233193448897339830393607847839834800511055390025983007309969773214136275222975173534214630753723016024649787895775747953192283564646618691970445973724630222791931426603405598722081814147046935120318533),
  (9, 13853436341591977859569731694735956680730428980176435161788412351927908805026243327422820644016019745967917730983704246353445720642217049898599434607470249126547936561915224086275828680944637964333407299630905726436091696472006835217336638954046716449099776435617104154841030440210618430541180336628110660480410859217942548984470906415682883422850128998382176002699878670169807666457848331917356220927188592596653386795567218959708368361783417773833160593359760086905362450996670107951854541586458238126450503555664059017166382097719443078271619776364855118610822279345048021297914191133342121356859016468017204379914167950447192371301457815766172749201154564731537404993762477153420232599438406859574213706196498720155922467978428033544688408267337540536868293216321506538282068424550803688476870373999590123610447604106441777361036530093354266262038480549012344342620694029709876856594068640797440776035025166710965180841160203793196502547922808221101020859001747936309463758199103904203463153962970590298577433856308560554167361066082121323540142088321977897500372570489538733536393638084049300892515275883488071725383468905248361772669771395699230227034760366420024071511825439554815771703295302803889180844963242223541488480031998828137726286872728451458603767469380891979738690749448783376849517990660524901150244334369786890727252089653136268426538022333754081859887956012054793219663770632816501245441894709484064518246504269575894169080884273680389676722037249605612237864932292636099951641351952939501510959876724044016474122041702140569188020239390964),
  (10, 96127524978839431060507536162092320141658656376320923974614331423262163442831965770835188711996048491460753277664498436583175450522815139801012601212133062780081688597052878587105404926569581100853327182374423204192506220551650399149795770226526774765964566427742102462672203807325685262360594023994796679113460830442587132532987429335479773070297814407270229516618367820498418423099633945895877252089127519825204673740831880747257714551331115190759345528613564322240888408562429023311195344388730934832741779052908360557262384053398721932032469214027834147506176916595250535407161724843971454890736688257136081745172730192871856470794615483232376396902742599622676113323905582622275154126376805936454955545023187931153702642693771990615570234765543120234917580034266631532660894497649839610824792073805592668420930643014133015206515398951759705116844134322829694752361897068562322977586608357560451103975548606486898289745884395240437650828613492782690463271001874414602426979968995246350505139919590583560066132606286937189090167447951339380473255391366423207560772129035283273583022217854225167266487303322948616497284477742920329977592462790823519433823344003508935119062702110499692521846933856861964656117533494217006332463077204456352745341800280608301935756692262204507886433645927687149038718144339414606296056818346456181118814116484173973360879178166494737849097594753993120191133529415871443654321110867383944494480865360333530538791549091567097985267894680430367901233152553139102383997614705244953469717322327849094206707656760758),
  (11, 667018679584952786479820108104398306985111192807842519134064115860310029347605724248187046383233342181189547789339360679846791529963100613976011824031068010214464454965526224677033660776269061213907729139577808405573575736254495770427664371743551280699732249019615874048321945692681200267899995210002083589330681104189166786575051174532404525754910985665147827148700037339166582578791823104528860393656228880190393301151528069079637295068356412572864156891703105277619284667691324642537176477909944347196944221429229547430872443415601234777604480746441266089151556020440578219159903174781824341449549457037445724840437494392278295689929009355796091303164725659777222369022424927348542909708542875534578456799235756370719230610273020806753300078880569287371499423796198705126427261807407407322318129934683416607907279944754524217498810024462756573218451946529688245175423785654316599458033410153109855759882531578948054614115457457305787141498855329330609573147771136554788695124140189230162860655127121718330381855545286076274077455518424647840273920472454511244095111366844856741529362382569783961037548815429680731842773359555300877027917766981824921269248365292845692613118849006418097672967677814245111320267992980783451657893748351322990138738318180064743839123725060687127955442074489221344448557535334772317121798379463875501026766766798093178709843416721216398955183480351909481716063453341955424187658637405807056117135438450500525960334299158383306954364190768045318753779443493632159943640033666521975662568624647593),
  (12, 4628371970914471269617397296711392847562526635839912139050659123758681309356530316948711130632707575204203461778901178982864216504291650154897587100317257607514303794881915251813094423141710711681198110797017663291674503162305894542583982091420502277069859382327253176660035916359078628673549804731386970824323230347386713455361307777574281546984792367699417147577766811647968711986143114727757933447422025855889914002930914671368225544143693494120839624722933532603531680228617850959863058316707791222075635985935104612255661867168271139234904836085247709578886957823032570060385730177591464679232383746019225710088540326928572018245363332623003626516903462789387346759634067778725822617605371616291835686611497886024984604490782109305425957308470740213417660068044267774759723002312550582996412383476872792720361493619794632482357495700432894170457091350145871045443784418487863866006529846622023817631334426574722668427917912571227721405910855806450167076908627830701739531687072214281948014421266555899158999845413923359566866343954755989716028990732228024731624353026495444322639581274221679342274923549428578455770032641831249092816417305690526674213403046860589747153882060668823711375066532383410798167292227007896789845646189112999035837987341335564248720386711590261444884894807790143256374567706815551872291713108138789008691173308516215732587533901078002888779467434096443451291515514420155918282702601851276211780871342362502845256309282900957458797621975260619376056951982598781915116458175061542),
  (13, 32115772519560167355101726945995198491689794086819716349284656350873738116435763891273479432719616906859769197149043016735007501185675290988647433603803967156030991091732064854468673786554663873185995286238389511569121239924082461759435384223328930299835846488562785196048524600872484925131508658047896025557016134785336868232842199340168620589181049826387245442288265257430684654894924475181870402894168329454971064105502781961634157435607264549561864636994873578279881998069063992895136006716316233795331037101826765578693544171123808475952993665459374206393350102943313695047003863263390188616499270083827934868849800377704047285000054398036989720751606980327389540587792852361172018978133105741320351314164050013557894861645530068779707540786987792513506799763927101381857104690050204821954155708797245203359226199000626998307625059249593704443392470662007788676079682409218947650701359136599905097599234833235804544219598603582207482700934358371625578941921942279013796384702969900728049675004297361906948419513364669818254013186255162637633487644645942554319319970432970528957709435101220261496745524600996153835701431367781455402636339041512024009106786550996805502454464244443376305232672717650833107848248031903189335861317855696388877531413637279528214300706644475234531215116450772882463544453947843929473003899878746690657100725322963345651208274216319671317590461862756011155350692797178689462009241532762483936856425213278119338775755607919536655464074327453418178587089339924835),
  (14, 222848004313668721237532141237835664739200451465036207396953675010540363177286745558205806171509702499225331201866551629651641504810635338855404544339588653832420873199147516402405996711417561557654298628150167532604461772342524383304054867743605995237419256078232064763235883577787388086805819812761854075389714864939959521599677558795036635772629637830562467363691164407015909583224675530767693154913387232249988833779787815957646995114971926456102775645307269699432934344294709726242244352834243095156232947966445173049321905572026776358870400541423661965636799996762221523936582334806548098741305753657925851200986998620344920908179639175602875538147163775827900749246601623643937439557785767124068370776405853941053753995283809246386936647072249341466543053163985178387918491206364231649181355191054640339377502496997306400177431116278930105948451444751442200175253334613992368625353611243556664872036328777784547332790772061967235019284609970883476025711112343320428008472456577387459227600294016419144088704562118609779341602777068539312798997520263985453775264237282941815019270977558571026772863224775071331150632689821278790688212668020297454093164143998960552275916726956707648753915168680871097993871323317602131196767457073396580830686634571030211691468656649540366582887867525970473198668338313000494482271980310614342990383244822302840512696757384866094420145154880065091826751975901958476606354760493937025168846048594623671149935390021674443488709084623953967),
  (15, 1546318748690504387958244432897616891163000440676351220861058498681530516873447867811514872114525042959489459484402876202457672793905315260759676013552583546897245407893974090302547901873859924202959874798395777930546227835873956511799264621688956415255714200423925510807436045199229448785850482117350116042460334236889462858604046071425239812600612850055088191376619071828345272897045289402224083869762085469839564036838902844507877235783641761508947422893035300788293907737691619718989046944434771399866715706276892451210835186237557254985922747602279153217341740100036619826364847651161812291580578553089434340996278498800312401834260393966878818372636572772900548053465982306237148050801586968984592807644162270931018973091800702316040100319431063914893683670050333337467867579285036581951887235787591583396530508623313898125144837174407417492067922055980069516990427389002525807038646930252669305594658248247167016885973072159421115627640828727986217819418000321117155679513240207126499056626335758061093358394134648572425962164465736443730876796742202681591391643492739330361913920067715883635493221001640636909799882649623716084017181944752118469365820980824756868868070171126091621529701800313676101872902933913825112768505834719753218141291793469700821022548671157156064740773916812258428661493237839483395710984590547359174708985838135797624596206684675824239951887769628183610339178365957930703837212473190431774600807524296242020656387125208832020),
  (16, 10729741113865762394494441234719875716030883218713293602700547767708428502371344943027261725836071751305351387740809778648257689187271990460934998461245265273080381214672138101156765306713485671859482790049191538000839016816854459823444177394960927846084437123815002425521995498361324703580164647711307468086334274647032032280576302342526494294396471485877070818574357342437088800261163815448174065515397483112218342867771046101834330404088495790442266072694831720588526512498486188088078812163877460425676108641809852452018589264917234916990886689461424294367523774715883267903099719817969267269758204224468056161331979775285475657371101174304092942236812613270232629472358940015622351002556106013890998624240630641014853684229334043936179347124239759067956049049925651310512529038047352469781395550735210012885314986354057342334650355964976426373054287662712188180246048938694752094585531410246662534101577255280508488790260090473934022123587680991618615879904721442763084190330240386126823770379026054696163587310557455586683171307514388142267681079130959317325363799087464712528897640652334180505481075389947216443205653568189789920912227331593728109746824270221625310561381561028236670850293764690031476634781225571554159289120025713993182384297739479658303016847761200407219598852195426757428185765044998819316500932234227984683271982359421248775204797687646022226757298295549115706293410708197897749271289354157867630667424427534525713),
  (17, 74452534222275979911699003954204084798339374395486322594225553284376754414667789923954459546151814068343706750427872831226718950322501194543678811644394589129482544192660512730932800830178374095910672170139940622398042376735518851504650323446339011265500784434463029236464231227231815051976520658962849693726351874920939579078501035412024363786254368338083794890216749090769145965281363555807303615068840195576724251958816441108844275159457622705497595536929478444486950673424903489255558665833125269180199635560921711560110913218882434662042366579782291902580955686422468937276400108331004726304750642332373723524289762988380905519738854403503732336553760883311552963027163064856195070388666727280021788122873180142612440213751377911152614293675878579923255314049090597167719677140384287920718284399008156969176615342319481143209859355461758781643754755828108675772368277655302394696456927783092810009873341248709173056272822092363227280733313222384999549572632570785428008396347177664942536171496090775988345267555537200631365791175679494670741023185476150848312487601368515946217479182851500566200495081791045809717487661480127358519390455363700208842238518003877414547959561750733499474775133552101628843555164715594970858003745122371445304010012163335370422198021361018796738465645526628736983235197506189781914881009184437434554669590022394395519380740425326957077893847254796647735914012125694996535707660929710860159),
  (18, 516618242667923146131089814141509015410253111971912303857107168602829902434396277770163432774574686990354713002108295492409796280347001418498026353224608294216774189369956397002955429323712232128542003334444908555139572017476457684814483547720097873501659761201250691441831931483840662685695256765406733748933019717395066836623742531309564651905219168626833905417892131886306784027291640265969653181956404028558966148684040310726837039646520893486553973387927021912658138566792847614574811817256525774149176543793748398213104404035255266117685345762768045209536341277817097676083380472658362499873460804419558013937363943486071034947794570008492029317637773915404524306717495976104659927460095005307002362156889604552196755503764196345368591409312895943909816941956399805971951671991463090004112683388622763411629700462536567545414886817893276754352394532070573442553262672796718153935581310811166633592909578464129343015387548855658316875794690347913840432917071445051704513079345051785209555871183569101474781461541278740513457117141500678770157747939261434583441393905886029403088291537535355823197498374591859327341933078963050669720929323173556446762379020608291290023835360228788163352069919836747201017498145617773375417479671990602651023979875236027207623458554871972969842064373410053103183174073113474511698220230388968111618086869772011785655860014984681888663240646986715573426860331582352239900),
  (19, 3584759180597208223504730455363480411447437178770065801694961450140979512411371595769910523028445508450907420171285626283763481602308739986209499645466268569254867376315255763698140003481257766069425439343893485002180689399246186523102095769494165656794094419670784297998727062117487200375159530739102251768341566643567270796488990010993424708746596497282500001784578618059602350428392567683635494857649976132904613659955292201075436446927396499494311780280146667392660830302370418380657507909651351357192958228118287010974884270880796131709631204698434522656558226453937032215284955485900031821785835382930376259733909805099980903893289880659352915157493985584993580350036659115551265642898653511908222166504519151006813451759440530516967089074631001934027337174154245333624504420045224232583159101310921486553559989634023814002884599621473055302802608874807934731640740557544633304043229140668466216514153556233841307623282609931977403187098450757873788455618649400384651495230065773319787874674517103025814666166308708271855592768991184870294645898158598972750864451969166103470725743301251740931297429999801767662095730644447515963577406522025597865521198862543059349935732082432697094357044961283631548155926890149278051115172073039756440124506009331611559036282063065260762931219135020741291800569477733651606534537300816536422685036368993355823423833000029430990551488575304508482862),
  (20, 24874263488886498083565563566351657000536792135305598660989044266273241517689436887958050336789700963152048268294283699716180874516634215653308687832270603690526640878682630661938710065989806120651071151758297231203710758149656442359533143226489966507868160311256317982997145206631928586814049777222827452444594870001457016953586736674512882899969475179463617973965093685248420995798052390957595867624279310014458373693330711364723038163466539009173981118455118009500766087046542809758355648030850036585439866439437452798317777852297541926588108646537722387335496912998281904326854153415187315796721686282831781002542359455016241824025752002359482143251123445818630066785914687757811984135298334294274082132889379756740352647195240288615562733453906853971512472863472315405236586464816390889666471759821606107888104070654620120849465472975434741779493059367357105778761191403800979983387590704074079995869265942245840350786374430601027911538618042949231801841084322117238107675983191473800093256527565281805127165824787577027110187447082605166903536865705680281946041219728681998911679348992644736058249231908830887339489831423989177149270435654533125161484803076648198408749244333276620734919168889642419919209180647099917388442780018988886549098712924477481406833875642434017847951413727984113934548861502527543495995820403485227855264661376391333009470042642324572847075),
  (21, 172599875949083898332763447629071444931446343990223703270955727282009640451419843442971530505195456042400480771290350895828318914194108552309411179520849175992961311799254801446095141295493800510436797542882859462693694389271900218133541297001132399514815877919163273206908998144609500727850059993762985445730757027356752771721734561477814381455660068639365401805353608810250169600543255719177885461903705137982006860050820784282013945837300865194454994044890860705637965343228266456472142178028370143197485411735416222630221102480085626894362195760341267228981215454775105459968946801774645302806881697321615004829258924035276877828037946196183467879931496754310160561433514869165684927496579248603032346789440325228183083008060525342912500678874482280624636794427402405802601459657615325450552515737537521278675809681605711647536009096246593774282814908074171371111434457943726141802085943997398475693833690260277136714139684562740092081784706042183523520346135769729719006736628336115802934351497101380696133512586385344560891119889248250629157504412583591981598589553117449460815180393442638259926698703723101781367818420684018895499028838736163272499375110081442454257012019599062853643961938729466283247164181629239561955703227247062541854428677579610602345293149271326149925353775115279080884695508614613769818402014596017468486135069319366185969455),
  (22, 1197652105070173730302219414358103154792630107956155849807192833728267440856778565976863686202675929074480730735707846910900552865190672815268706774045849324491785902906037475312527839561443605169412778501349312667151213523442660977462191020145892480730155781740773602669101308055406707656538008017906284869219124936974663833541943438200956406157971203655146155737183166318995207023366137344452790829598257543024284340858321283993669997586234794831436990313343993868431856225799192814074665834064796216380073481403464363361464857572005342077083001053337795904386505914009433842540565075354899042634648404923870310069245085263129215953837133278422583147690371469690313203705576720818871857402158987874626490135389925244759528983817586900170676911417467021828778691725083836853970743952316358914180780658024675896709010788413659546960541948110500278221387069871271391045898674439282853042351623883683283222918877019294752051732319072529996276942599096993340390666236627204382963273448591809575741140663213954940397414529264112619343027813050406476284177437522642867688215978140292099571889723136785034791587259431613903938904607066763649206791987004393566819220078321875808827327378409838719040435169386024740745571574891072378245012086982808683955983897191995447000945756698151997374770755649009432902380673172224006624289279792095420573296),
  (23, 8310381737196573984195506509949647479408576455156180958297467739783086281874101564713541378205491164885579758186940333686127005965642224845083493738581654576700881128831841103602360107753526426686859140166422659754598859173747235622240856810788559763664388726940276876920776559135305329626390179934606578289347997211020533043407295284651450383580766021563295919131316428523227556325127247917405528612981915457115562333913250464228248730069599131462333010901533990705916598685268284850984659845838697337412554941964130237938091381424017739645160531741573894442644174450693022036402189473878130042083284887434511760816135754091180582809287074239557569403328539589105356772312249839186952267484371297444837856075267429891242533801152243244994416885158469083849744109632845304216911307144540259502327550340591513326158603461785546841642536802400601434120999043426882982566310060523909305109696962615318743958767635516696704014435624600614058653008153960803295898492184905571918710963049263467120917014033822772103744077973328930364050356567208247508768188756468387823757181041818698524945032690601614416006098446132631566996731983328324308759288542503225687834664769854972905426458489057732624450269695619566831322404347588691931191596918493549172405718638920576857735368511120568210904638508185730770045224917943938998417541),
  (24, 57664860904378710494541032559346296231328807337863798931594761839877606087915158232965726186192016870810731822827880453681457425638934415331627785268631382767306525310108139753642153160964896557078526455793749560690520535729826664540253642288856973698152080410042070649080125762130753899503574098582002400378910474148371414831731514926828258102036914193995526051332760366025166665836685283563705102223464954387618095746638618697895111858919488769173509803362276978953524781030298186914716851439132555238991529259027091189527955472689789284936156006296919254500099382935588930294312032289341734317073510484296631778158487947885081231599774162506866279570363609682294522405450795331247652727622328623885610979238447673782688368739461081690050848213387433423212257880159220408410429783580293968999009078628343103370502402720189195272167642500325588052708231033192136533187976609870186890035195372174071113386646773879991715639034744768576386722803121181478735698455305511207893567062545276027046617746567746129394466207623370127766228840874019259870502634929877709735882339633498806396142546034684294054209272117440333260494095735715342010916908952366419627661938218055578166451106766025464314509395750946579977425189068246195397765037930126011726174361063795832799590091098676906917374282012339358968787433),
  (25, 400130325923892455289941101393109934365515322113393343170106477330094661125035555365162923026873279455386316759754614635507621172988201917324399459151194247181911908140248918722585640623407733088294781368014462760840689421769311806236151267185903128655033376740321429064254475372028625649527272282568891467669329252365556955979206280237875454819964425892787733878683941760813424008943629561078474619918824485692369731372528217069354175767304296670679927052477520907288188783847586880007896980598026289320473150097890200843806045452090281915022434389083664881356493988008581369637809244389214824292446180060004082022066644289976042388443620824479303909791622523273485620639126381020661293760602946898875653639879348214869417428177208764191938967926722864957410142835611730497455637076025618709994822273880684386078534846772107569364636319309496060765152096891883701631285346884578938785353388913182795503878526653842971684677837533986549328460765665051699504862961004474416484918769048404004876652275680835703678708986598251633882480047903770256022168950516442696331711773499435693306415934595767656549203716158691129375067995091261392593529185400561453587773611183805302192518536957363434300587993865354798443972802357425916295427426528505260956676975754352802946441340778496172523691583),
  (26, 2776461830438890607268022847815879665019187497617190999546391706768113317101254970755438087405306425054183569215890830125203026583199310924473044555471175036561712737861486784565443429087211613719186905990492672259541191102155138467308523418288148665675111783744037223338375934753520559145860044548270114624407478130847911642350670236473809133378587148242792566468946984620817432684295280610720703069846639925089820866286714428408551136939328479640615146587755107726209389752211939490941281631893853054801764342280989243032324612874798218384282614611448872070314090472597479812867958686688090104986867547277316007121309925213592234492877168424887208864887025240380659040845122913719311621873651312349757877666517673575361629830669492328094582742414831233485575636901206749939025188904978281636152719358788108225765314143884604702982930464062763564961670098699007257355038240098327852421363280691495522067886324959847379851776429557807807825934413255073505092767201020000295187259983009202077357155325412714120638700434857352325806800834664873347858645615279748220156771437419909186543957137068043526645091717324348881719515258834286127068570441848781211238906882912671163119927426525942972969069889736137223653170803353909144097629999923516448661321991935929720914771829),
  (27, 19265574408856218819282093699360678621273073069083547855805188315895801183815904213404668117595415063344633393800119928167329591130735715451860761468832113615441710934886271856444809498175934068027314311676997946620854760628153931067364246493454409628011073997158247176853570519961149195601055936325051360414989055506962369181460533423869691678468664557052537051304781205880200784718167711852979618162186323392621154070437463608222035792613176528229211442906934703384713972170380099790841256093822434987666653466085363063315664021557056675123917041694305965080852212783868327783477107748130439552009765794948270946230874621094616319915410044086779794243117363549464840288395904771661519428959423665617950399618945640717298766338176038327117732473743623590358232168923135759380774106179881442905251633495421168462818671693772856455424680606681435149241924452908428772824022873113210105711922302616478390101502775129625914089795887103326594827064837627590218930022761847848070159394710555580119871145102803045689298302362838691138377977356634527784730889145868426714383123282759002330397811312663638977786625122084153664163767819631069534614308664475032484537274428272302586404903701203938474860110661500843771417016674277408908921599666242004752481699644),
  (28, 133681777143799496409688684310159651203222590977895734407840442857126605435555515770649382879912705034317342216942128755687410649900390890298075792966743574186089120963403703139950348141378976169926186012359343681896002213481051979875568392315467165795770812296922522294583928140770786151516201210403875926257315860244495769748819115840783915300818095737728204912824286616998007085936922167908974504990600297472378492171365706272014883110625800109424138933538504495656571041531723843100642011192046265928531188734219987876525613635251588271095578906562982918858136323292913224253385299171079871473011766682875829518575304074810728438702436246653615936697195259679458810215601607524169584604473305949889420271604237664486980761362607164353008592347732251663647385528425920064658790794482324080470901650004051053620112279925262364395108944578247423859298708896091346306575114660377325346328271913051233069243834715305598114810850218822459819623614205271670812912922471362229519464873340274670433535442122728124106904651590472415847002329233155650713044535486506742209265743623042785740519682841317219256642069825968049027880119068215443737714112099059266448438395444522756608045256261835879955555643431356565582391107069272308216947076263),
  (29, 927603666245915293887464117703767659092710063302891921404337015374393152612369116419634561856965990908740648223630534359311080033174076020813256642397511397155314224550678545249318073482164706210175817829537889646990987773617181951346323819820070609895897581663154373894609244708866622308354926739824407586130012726690117790404787324214405562886702606899325414649057770508439400704695384156683660482461312052724336064393312651669416781823247876984736368256082062183617781217726957556905404671170084948139832730361085499326750718104291635275232715196314118102013795363305457931625821403971036725642840250413715406990268765631006651406143938559050498092664286445896184313604257523309186854859247223522865096132705226915099949895299213187839785649624193287473720996675777326353870190381350290375902645317245889631371102682180469460341153722220007409626328471065723344227022126028632206710423202526666985333612741570147552920957750126028839448615265972785030277174462347977180415362300485883945796138188416579238764475101817343797393930137939428297589508862121453300667250986889095779652068871108290929859006461672223160461032449728569878699294755934911096775065120171649007938224172399566683609249456028390939838258893270),
  (30, 6436543424955776900638516366595707322094452450270730783094618210646704186577141063037427877014780024903204975312671954085034679545472024190645220576932917611493556911327631076112232093344124699820668904968584558841530112904168694658797414971095600802930981542406794718971620957834917935431263661643013284855225973782955902872231392493863766951296731322389591650493476736084809124604100486151554428727189110035986294528183296906072075595165080336371532306460018097956835540948643661901141163218321249797888683546582750207485917805758480603823331518067911577937519107651925493833340665153771361095066288146193919827812669198642531533207583996115430169587805138588597381173274430091693999968920333445598206796205935030665154920824095814480771837071018684402707276484619106017420714377448374290643204071358180536444703964078987421297774711846809475127541064728157820175196240632519557004271488491060196836359630742200719452902728462840293452616432875411046587600206555696442543629906458688336798091233632527445787252366529382612776370183354034009837486092329078699452948044766506718789888853578068333714763715201248101818673883764697334610653091996857964472244922394147317404153331217298125681137399330915),
  (31, 44662490442747412495180956888173173941404585030802533426237233688291587988492062672433366073434464873172905816052488339679685218202472092213223142838986419742030041960397245837949897481944251395154081261511690794443014237787758739776873250414367166730908662887702978913666608949144024336758244138799421410770462425800267176998092526670723860596836840548076268801410665709867504904598015056248429836889326979406882547439058016256161576134535750247286019218843090430584886194431515049595678302561671196329958388699210781126531034714046501308394490597675293509478001229494657120257681991140557332647852784721823348421057000623983951145467932202727983750675293758040633126741085058488463283091359709363790522184050131871821592269371593269466972369058098111004751344022831339897704665820849023629327530993176826474509900628789778712825410972517044914602310111569086961469504767151574474821140914134571549322325913873768319533492065438746164214232075138729153742207214071832330927152958724209926039168439307463987131512139453567603448970876173319543235613481753384244890799468641866884001110218604908587826151362585596838315265043415309401880901121761741105611536808016298945678655834539945),
  (32, 309908293011777699815445687677869969523082560599798907789900936876332774419298552818248636874109981251970824511139896468809791749721430330046997512496952556230826338781282150560910118154760067807101309671573100241180660941505283982168948696714306949910631845504589325487308993433757702650248434991149900674061455210853326937460790863762754258274520046207581846325834105046026328617525182503746433811215677641114471411044360449093774241853457517981560070511317035750019720606495062338242666077138596973170110847363033360246270491183040081602981344963532580066261994193754977002940356873229242786307928790871938425378937324258660013868827385796852420703337203862346295847771805912897094343679458649693306946171709223204425851616128238575926625179348856035123276680718252930115682654559453322446792787804225705087365956158366413120920101301870096229893035257483037239676111837402763270509679048008962516934038225689144061418046394483905966388654229036260843451237764517568470496639554079052626742525878480523031275591566420407785928406144182262832790777920142780804472166703164679381878413356150093108599051510084039745380758758340272810210756201680554662267371065738567),
  (33, 2150420837182886742002951503037155120870150885635903537151551757005948567742124728295453312068118707025722488997586976902873464645602316489121614360740236692437951839206326082837857140784735345618874977197547010510230330151652517391588648900088339267504917594452849495568150881061166732266223527194367271156315240377926168064742762620687372433240082954860658156275740705429728445569184407102995379595222307418664523646724968544003414767946486479656290473217250927808232216403568168643229232937565999856410046557490131099342588222762226570506647031948915765114082254088062996839850619612133891297397210720866864527200934512945345308899591003172376374566041816246959649069002264315083276242789767669315916028793186422411641075421111860559505130094040075633441401409746268408256408066591042161680675349550938661059065225823172199547583514498959278764382091083688070155493408904280244559041717185551499576406659177580097762722983281858481696089855752424731297963717109711287328954774197637566703285243038239906376372452428354094274683527887597264363551106503050400288374369386892326944654397434004246008759244899804885230612161838017198011728244801555828),
  (34, 14921541538132905473988695721062932563133925852506527562101541594229237776299824323564002644686552594666664742623454272080119501329851120848245675829150576880501135395734968106705263880665856074912549136101333297078967454027056351994831807513404721833195201511537888230424968653650254828009537650169116234936690962622426356388552861266239520345069235100834849313302337109847732208022159374321695188184713188908882795409616851733465024739991146432501655143437252956830176357251962804778299053349728310708206527928407020087539064675851832318973769504638906014768381462963725734394251768087902912880599419888394312168551106854949149270881510276915990475531418584395368335951070408678025038438069203396863875757015204588367176084606633188499166341223412970453057426633933225456104351883264849804586835292382538527899104540143414330875517072015701263922005232947435186663155965867817572329374104584772384355383344284607929966149811836134750077514886478497644055500610149736674261541063482112306766702431999990950678405127695720971624556993377173712908349123428333841633197410484464505684607497664100878172067993257342236430747674655288925),
  (35, 103538992448565268684736603409159643261753206485915890450368014422187992881142728671710533098995373891257943617232460377932991817398548302047933990017343093326962624897778261626488006769131123838522774690519944546000654809978418011069088202795307618036844711285928934718328742543730373963392093822130213852122516616830911526143432705261207384522353669431885248544688063519805798264737213712721190841424203657636430898396591669359388086233396041207729308675616758514794303142493241649488174533877080320267196790486749653359041335598722259514949819483683051313837844858918334718481589662403884267283502289325281158396850828490051176485640157833537505204399576577387529893107436840762951156879875028595957669946864546158836908846213399759748855350360044106966681126920710138101176225019130875964221251903331128707696066862130163575462938007582837351629493244113202203773938875703069273438326072734212640756328442131931332795672737122878246532458457070455774243460072445073643881720330811813430716516878585242324563303523777489380503800910466406879579269932751410398946997401636112129031873134060485310366219794829908747),
  (36, 718446091617703409262636177432688077953594476318867129125489930938866248569107949074405807263726681832044706810955057439335529716733329668900920617501904615825820243692537032594291070257008129259843339449528702007798173053091970152991941627163698445598397877326844489633770947271489842258712149556670484411355787390877276759852229538314439955711100103235473716279827733874575225317058321816709882538924146791341754634914402052888534947470883491251038788552735332379368036129521119655327581464151611258931396567673015938445475320538939062286980386861050152736003335826395690762810422811815068230826996166883117125770652046241889347831263328507809354541592671595128869799464077402256223902461196244193863630431437950170732390998348140916883483718790840362450492137936832354795751608629715965566869455460119451377156835006281828651659302431725260114750064569176243977017625446095936084112251245343115533600333425692916943209589462855286594471193746109090860649159029242067592799484029533169035235334445934079872523586492309230406642666123970139127047658699753296325144040792081167968734422178157463776),
  (37, 4985221222535914443279557022388029199280446312788149320233585992377150448201449688767362608980886792985556950034596592161983279478593138712330085907413526547091337356627039494174702018773857883151564537453429984668707852788878749976470127310076402087220881540954147441010897565300501508509055343874755407848303761422059612912159836436121568280775905659498284982838719913853812844302393060760205341552577734278872006009067765156115713561609258156729212063110647632964863073903234876121785657384419741526641902802878362761976323846597478135090754877329549957892825767879320870409753062077570463614600958576091427495196822382448450129587947146969848055372263192642780789162303028044237023639293786984424662282815249644282762899130214789859248930516598866688879104066276060282505904485365443427396865664552294693617631004643754639651230248525038886367416149541431908223625524491679468648230659396373278486685143062108325374523374857336522147586061350641074507882139619570030300746128077838726207026880164291276094360298785777704150700732663504731418573075100156136143548573608105747206),
  (38, 34591921031862762039302815951464251754910691307664905878165069472164299458484792698174025607963574404709489943969725627756302170927774101590962951177463244643873190283652471227365996808832374577849363246093551964522001495858908062054596157855186351038126767238469091779005510501289565255392228744576376573798532089732004998778034364991218991118931410421938177643199107232379903768839899480951027172139696054036836672993419902193187416470908833843337723196313020549078582829407410996275180908068194971342950495984668312050990449548358443065842940112551941597633609649718725855332753172104289160993012666937022447561504281606885967886931449487192444277950986470781164297182290107708509460413908456812774539000783425386111129102442046144843258753169561620980928809340220290366543561470032510258120666598716808061893733826796604605891002589364746474919590502903015701379044964895226237730544046938815744473053071353021390979114004511993425121156157755220649151897038777039250628269813559478790289115055271929212134701421206643720002505044881983984176342384442927228198),
  (39, 240029669921024556653457035152881267613375122168268482391176755276286378925688494174868220074054940200921100255043359048878710111900295843397095268135415521541949751281814883624607306849650553185900535899630387234551138163325664457866561451017133914600183913907350933107194121964325190269630672967585615173844459203780500408980682880849698193926093830442074703155952675731464882015446360252761118266743927601002861794291239129973299013379348604414781038021775156777346065439692219204825218408409464621305960882770831810546224041386442053208140064751379358227273233084250876874711852515686745904547662273384215564814853557383037402397496382642771584395757445911959815509322607774364811121602678202187289455846780460807412271375565316061495502736133293584692581765906769283156508482457693727553920604545558508167822998584220143436947138275410186728749091026380492917247465961122487923475825050323136671490001582014588353501346673589431964505966429435129262300927885506239592964421419507750156367486439902182607760053872990567180127988385327991408777),
  (40, 1665540402977369166705934463806302441013010286199550990219359118180635647469126395337927092736913409758262937913837107812978318451215310545104206375673513228041860734709142518715701892850830180262066314995589066619912023827049885666951157313588714561277142596706836372490637343978448646484849612070848978532289512795142942500469636198154868368375006823391950721336048529932061283699874284692127613117445896756063614996795317574360351102515230562125199964726033250154036193574696748728071222180796067048390215917194982622793043789996770860574840193486865714498775063549494687335100894521208007112340394205071088315915825497018963722938862016567914578977989068280880144391054945818126611894293434491620563819322712226437742293551352266177069254717837991427080309066927203001737877124190651432901036531294885781273022448445565554660633610212458072870750912838638447378965642012749067177385326334784483039692220544442393373030463140089365796784113362638281661233168403146029681594499845997429403679200243452760214492082442406778346270),
  (41, 11557008223532350056568899954263400059447380847827931520586954721140839561944003470881567309214906846836808522032927498438411136423568865977544703897695872021681424334145190872393967717375040557050111640557282241023013695174892980024540247593329088052557927720939910934718794101547523740399816603368954609071369192665557618992094757728608329731254995220429548129254537048106046700117840450077010713962916367388233632995966498499429784236854353551960144495532328625173882543045036903662429501990896174846714604395727210184566337448814325542137922457646836729951089714067658562675414103378316793292367764536953915443847985461600720007857908835173063646333508385053523733980897845818574207872737107602235979608507474719805446340497432776046619357793377871523899368187562528053849480841806561679797103852670207380435103207781999699465468373970684299457214514933206923564988447996736026848547194800985342299540765866553558187932230021512757466475414975617804438968412697105802713386173758756381534064312517206843743027),
  (42, 80192855766595825234862539006558115812607414834585153074294327830193446836253129223465015994778095585653684621902403662104123101865785828456590809114621482368962455531171889375683836946020766021847002310384114863176155949812435063164130302490878731558560697699696134575539438991385969791601809232650871194590422602648451993518027195166063896780231577080843880828409228063967593386664886587897546965927449423373266203876493636127998160232135605647045757005424169403130651694047002427708262671819733785714156267881573493657327415080166383472595206521600752863656197511074411961019498418849292613354938743803384269328956549595956217677306894696561262933618436860018544383670636641278153288506351673655410316940166099779309443702625483401451562653903081224002410544540679957317382145997667545106247332292084420963366217167058490285539317779019295068720828844350574795074062919052250648152324984637635264357423437878673888790011431423003032430347971599399073694034965908844800001198901164237159914125),
  (43, 556449705130762159121266002805040256522080628806661047874202156448354566706924306545631968902289316573626985859313546863244601792726862658476757736327599643900108989799566027135138134351867869777031490661090007184810208796800886677560272578282584174298844476106766265013213975331352435795680768095156834604774152283463333297255157632974362669093238197854839608102806334364141125206676522791749151370349590101259902000829755311622459044785338454411218866439922441461847145892500359413152959382162394715120091157368680317175706813811422146015424997749069688190200388095029757186872092191180378369505037930160055185365213107325514658077532748337698568075300509803738221464981769849169084878963819946473979569336629218780479433817928748827438709355218841726472617423426471002606808414794669110784946090815271577969729176196002199732744760995196534369115292109798936738033876945348452561301436938940770358175936306267127935191468326191073858415088195942156822199167191952850701769235),
  (44, 3861145454566870823133936910566109268370352011287137919998024708795236292330441003915913960947248849112362405168753811611433859233580526523372132770571968846064847267467987451876325054355075869679523887249228224265341274801531908819913402353843502980412717613515557832411585967374241419133583736155439280090131256991192315698610752228468433948622389618567761778595537000081632337682803130731347337528802695069061060552564510552016983732187974281451770946317084377950379486778289821615019476545574566228122036609893073395635244592092472796056470723710644909322155666741432687432923195644604962657852211712050444123449094145457056464428865895551185965619895996667053257068041725704445277176731048382926397525278576869571606141640217553945282470941292375871718102348176472936864759435594973243397900832363875098357145928743029932429855378910580370373192764937651056571130184512130311092406760500959181667135629241707470873080125827213436229746591443000972505099412),
  (45, 26792078741419563851069924868929809102524856153959607229415872251991619949298899938358374644740849174968390001590654745940625699444565804885805187033556523106007026996302911154847077321618221493237753356737488436398403257309484357812686858037641751772283754380574650178739185475998253285115393185392163948396942615127814201262210759116851255966321445841955535838323999513228988427112930264027776853304133960964754916492313087155685599017821793211526922492478029675509502422849655048187523845647429258265693389103886800450465760367485073200322542492816412681794292952845555450204260898855166629394012836394238187072619310477803755695123619327439781265036243302383589052286221042540225735661375009611123023310305121183959606494953723237001363971910018351434184567243344412454804741508753565029728922661381053422264874859278189285053207033983033020261944522340371590416470735431216093481876258815405500705006815325123018914045458803232109479570002),
  (46, 185907392196260905756414816092035033574029779799343270157003911398449242235746722145689880168553230733494590244739100026374158749698647537458934829307262538684689066149565882256941037426400732435915877064493287366866819787701499395220674896689150437814431020271577961878349655828955794264292267069464667419640379088020349919313749794238929515388063358244860309156554277860718032864033403601519028837130649868741562989127181610225798246676352634682350341055008097092156441396326140381925613145696223096381339136729823496074832383660157604569801555304603110989800191871633852068674692444617565441443260932953590295194743980438266876556340005518203286257020624388871995640326146615126144780525443428238741955520212487114970548535089361355460215747377870049609783497433334463644357750354203537098284292036140060270185867765872340672387508118429775884117068623088455068109644502607248875054584588053182871633010987296231224973285992),
  (47, 1289991668012015613869301535384527818025845591913511444086088790134260772661221113776714816260463472326328900705108077786521373760571723705246283322615890768202068233278652860677846720311883831059664025577893505052243871107021944249238079064192155135074626790784747439607531099984868511781795165284675699511218095407014334558930537746510921009658876577187428011017643353130454942129757799827324677796177119013599712848588960081245184996394976497194789527161972900602962709657866103157392497539938270672624428208817106650784583816532106218865556084851246115905772012814803743113065866949105199056110195629998540790319874473675327699189032244828510696625257608124464309730948874217658713401169619835841426885199271789983184362433309076673161259276540418617000226776383287562463895095318619424995508347036903434953986029010144234838302385651316451457396258727388384506791730377603052292563578452517308690441227802),
  (48, 8951115320013097338172015183699562433866073642443284095297337948652861082100959039696519413540044675826499442161228563601025606699318209454924369331123442241510585513537412706767217691680708010071623466137426443676742630134472476281753375304988912683340116605512774857717290258237499127747105578420623829152204756964463521456542833583577618343859921817899298023602402267561826799257328122505563314317254885178393495594669311116374858368720154908774459289889776566333380109527230554380149046735858794698780162470152522282883513830207803305049014039960250062811936251972254559627479016799305280261225141439268464021937627071198374365194401787012407321277721595146280889901124836643893518245474620778210676383027522474943441673534174255597134849413317752822656363655965785559406042892105641406051104915825307435202828429181977114470465869490466604934035633283394763761045238466198389079658839886),
  (49, 62110839535859471163604157237524477282391909801262467818048156547015433953002973509219126849177395031861767838144148078601012461776193555617449743682451685845405546587627418399787184465207180315187556786608148342550354427275547102629767173609866940129932335474196783057188894445174088223619671319266147079943518601645206622643727111317363116076195873756440475225554501118571512202669781202033771310910275438041069709970709769443926060718638553766871812522554759870171008241471706237281170969733254393923260735522854939266376151651516961672790620959981468819779014399852463177033671745664316390874854409258549982365229271303257030056497214956852988749451984936225153199154042255136877699859702442791843668959027341585158349265791083409939993519946160259049948419853668471724561991698113198361961179694450564427609615553800942672028067112017005779111535405564087351790860868303),
  (50, 430980525821935350508391484782552674964200486422267252229685240456651128964837099956004392684997549467228554473552207853859848185356436361611419712380454714003851109808191810512551470940687077721203310780782236655454466223295830228229031482257808731502624601849529176401056794459815704147321708029453374118743175186926421655595177277048945240242599804029598660344739569207218994793041420657715446247982842976786060229733186678554493473646356626359264042358329613712201832431923890530459118772860184341044953337700557073812478265993142815975959171045932103466793765650249857846564810633958329709438806575953663711614097905090364912494068036751018080085470379543994098335834957222197301369299234422812284014962190846473998763826096933650238783339033726144906124946662132657470480453535211502599205597336026940087965544858825590638313714201521239260954306895366),
  (51, 2990528185297240181758286800863941246551804036107634971159818562013690334733784088072802807891852970129584097039961289241961923804418494856251589334007586931251554776416301194346688445406080930871545109661050679453697648258750686475170654396847632536455633370100036660340120792251587618589114853288748883052481484616947708455102907595288068907285972199352124898013542529445961420546614679385399658945082037691195628855706807571563171635312038464668079672262417996626064763312796481589158412823566833486026008745788009326757974676513708140907320270269547725291978937334217860864015601142621582382653838962124657943030899281154700357388420585003060986092927422812498724873147966274907253215924768487986467106706694982228203208687861053585319383975610502488857281247384455484354382396519077388803091256019940092282243486159068873245951719587308),
  (52, 20750957503205540378585446258051041517215504437494483135129474292676047217618149823468375116522889336649203805913571950402283874429837501555794863580858523354427206396512841550532639590913633622120410469369093536061180444681210474410721512482497900579642425756059993827700819728804130948607572951397912770864531431814340594012219184372136215559526185951020126563924341701569078426691668783020106784280438048307306383283342693775030405199333412915285545516109651344730234080233875243429488116423180712369356910870316620265451858103629611050230132604697516919649554715689385845012969437657040958717882547738815668630397554971328201527460695971788127523406912745865501172193543371714353229068563492086162238235615752459767472077669738814135716456515461606260554533479674954213035404541935777100423302529878380039600377241901925),
  (53, 143988691642443915026351142113325758755909350583776488175631730822404552145308919648514155180216697136307054599184882949266271189213367621226515044505401769992127583253566623626158668370058163725825652347498898128475540571277912755483087560428113086730425368401872468065576189646937690398369765740590370220642292403719066817334376100449694264842601877259029795515086048230771229732086806447642310464546557879815407122318297456593637654876956078687691356542972996375517861526527068852408059619401718245002443124859389785728806074733159498910643566629664134851635844346943850950690244719173272308749064617228296764691845223569286102565938848981528332777606913371299976652321662127910659698093196652737138811330401273311525560581876989127600149201330990261126881677816557512089364447461181497018415700177754618),
  (54, 999122260753263523307523771347001802225199839198140988530725523705292726521383493086184274826474832995575787043018893773589331657044747066841440990006244529700810855107917574568811993651118568124171696841886321913688120107319279728647769496286192820104135671480864535657676413842313907716061600408078498979471216430870371462260820554923791967322275852830275210099673236944353294766522018411743790513642757023002369913994803566294067559170010963746294675161400081188331730208103638223021739986422793023004320302558344294834411057532443786136359017219998584516420461033581904131964020609400753909101054270786695264545265521954419221147311746253816176707741652335109469782090908265982065395046517028332426154041880758419204558520856108584403510700652809581852214363978918479662395896162082297),
  (55, 6932803370680124317686683364218647872337364202055836082674204663792522794433222620646047424391299700115680794951598691401902824698944797580963973070136027765408307062444549652750276635118441699922959069651206490848416787915199754730282792430066505615886026782565274255083749950079988878233473561122408753508815014774088850380976051243125685421376313693736617592629052489712687976277854685068670448090776885996265589914423122979173141318458233758745560219437289328205299086022319511852134077315953834989682519195546636644890629777463177356639462880623151849890215509003478178762740283286534044870335467610613130044025308348296132758968365858313033418588931829418403399372635644317157065227178194987347915176226795617686771678005502814156523660380763114374500788412455592278),
  (56, 48105987002214554405272729574056239977669643688904197613943096273907587319654733675333519806293444990082232719500260326418033464577930680042849509114403845618310216145806872623031269974014758545917718559657949254900346987656929252402761810810528343464372671820591299912714254836503892937360374061506694939713870541543774112081397148237115983097117505060519648533252501169897172894978600375371507006527954645202762625318411640798603671195971412483848086673349242702480344559038253560412268210946527012974443416198480785587860913992445287376834989172015471160986961412937958197366011144206939492503566800952525923304834115695764339555247752327887836695429879791240518405073078899952623282945185337773183057102369509744308798207428423349031817415462962734102),
  (57, 333802339965799088086507113553720114127259639333243251454400457977516583026529928459770244053014672615693869868898623755128091626194655403977376310660053617482693591771108594020561244812155764546566109496839677194562412654309217215989180917443840628873654741263973512461026091655461327276918400408474643130920321576905252334567833958065761011079259487367659102922389692368370742736286108276120102604771910934972991821516584084948039254320452967449003668519205029612376287033979396667221232826101109510987296695679974572807056695193904347327927766893344880501138989052932813613648841313701399539452759687974831066964950998482832599193891838607160909482802060219877032173963276087632548106343625397965965465321749301055576102099800629885903),
  (58, 2316219021796704188892856436161207850019807086501714243295365047132361215579536714618653224923462547410461904827954373689661844481394085495873361103449341142000605294941707989880253148094044437476292381736923554796560048322890508771768114748484428166443678933615345237926081010070669442528562817328158979244154273941364583593794163381404971980521225059181702394926372963022339683523927914152244541730325313135861430253332799637417322336101767381737672477006132745620805383934964349013281439317555753155834109406193699237986231380835132937170155367617341314802974378832046813253809395383441055916288991902552208290782830569991087638810167970452940291772095761359866541781659791391499264483485693343299949716645968645893242),
  (59, 16073996918137784495895308866574927014919196001155007596682133845160535784579250351397371652782850125354126062501127153553808483649676488511112326330452150560725006111592799343107146647102909188837776501471892760030431441780926790829072420619178942116342151588602647165630489453546761909940521793381059657578216291961264748329539395096436499321323952806544486101540121848142337602055164726575133954069123597484744517095058116005307749951011165039138443073894980872091575606902383658248956499637694843761144764208782942361864451457544854972823641794427498601472979660081693724667922377585385424635995878090699674172331017315600052863471240118390995762364412163027661850402228850245212850082185526743430484),
  (60, 111521901261826733760763444489528253262306864002758051315188196106924507813354439684775158468831489256716615225871892402805723269336504146221585702911596704930534305696166725145058400142776379991705726725715561587563241275855661309823534910145864215957809185002448345472762697750963064424854741998146412424886347842838778268033286519376708573077790806960659112860402317419696076863451000746865176634859413295135177522602385941572598006157146027666664116120839282794663302565233398094716984291946118322345674353870310928106768286673950301594374288954336356392277230884052144790976965113764371809729237165742035524955899100352153516901284810343331843148328990550916852073729848343737991669),
  (61, 773838557787812132461782239918272834109854465091993326928842435268823195059811541494228477064547911301519426848445928993768779178135239435801669010939073221952338578469909244984336990857187601069329487559728808330102113533750376383552751165542719177973289460954228467266633702884866634733432717488053729951047445997197204315366936989691214316618990412495928815695730432761651696152210751649897275334892613260895345619456046334461937597378923260893177070596829099977978507600044286723778340910414474869680328755993207017691060382007914643129720545390160226366247231674173899957811060575626961273745522196034304944821232374551756607644644803106242983728475763522144134524),
  (62, 5369584972931240426992694985606547928289789151276187538366564507896465851738391417854425662830376945781884645067337268249168486833218668026477827222978250733234664710792448714836189738708362572267607272407582923085807600667214997696571084048815485925629441717276464294639138507908797139536518294267772493355635464554348361088667094222238366862730427029505269420394953621643924633064079116886781744418519590592431171958573383445048882395196095345964029654339440679311651756458443011144864537006334632430793020384584847578460225257958945168961871936759327094154378343218832459280955286326654681069992197697235507608836629671315964267499314039994256229684),
  (63, 37258971264124495455179695928614707615533110223545222090449875651781873805153851528780529468659312468567858248012099535385994396924697146920913067829990529056578905806074592501498306031144375676736479303256955002368485653514721102403606496558588574003740129396528274712773086981749944652586045684050500375852357697234346743205083328215115043189817540539544094349486406851840442128533366400115747231719226382414648270241719524423283290161983766503968527079841606584748583747144926308992644864194610221936770304359009513875861850342142059200281070097516483506456849868256665384711775814311398306044044126460213355364056393689036694825071),
  (64, 258535932593517096330137003554139865311012385010757066176483233408837542750665227417162812669818200559171329837762190140065085335208226977349462368973187897505867114973806283033294314496340848452091969904533277792260242269310231788817520854189120095781512333187431334850077055411265053430941470529821281618481669851854421645941493902393349152974733999944135346485828229220652206130574990667508571299133916392819192775789143148648692463151389826536264460174857689798240610952144256271082084460686512013560364349969254201515457652694836776783626629487600073478809575045203204290957488272536844749114066797477392055115034),
  (65, 1793954211366022706562587743011449143140406449055995007498983194251528315505441446744792508479410968491552648592508466230018855523898580977146834695591899378832895606617330735153238413388256825491394143938346680386986639457095383511435219562535132038409079802305504563584048717661812896113045403684125594751390058936473332756447400718343466847011513222056254904098040156029689116206131863993652589117341154275457597932744150568862929047714988904571336262738904504098816991445353402481898246550441654436347463025359104187142008092188899512185890331749547599927829958025222071717240748104180337237253606),
  (66, 12448618771114504765369017117799667490917404046183296299772337442623490377124991247304655139595647958276140963450930495208905934314405187357334453818521570758514299295897703684688069914639120739995852161556189944628183162600386364118517244283716622095701109005142890912118848480014638333679968939659076354568335099283994529054937465931578865586707298828798309512600832289762435065465512971543376129971875100261334506739781939391751905000164423404483593605064316507928770730808701895751751132658646997583915147353711215703626377051534430284485133408488973455368269022479989625142377040),
  (67, 86375753363235291603256639569775128719167196267260270597597549810694393594836939319282195478525473662737831365707633440052400194434987269209170250513505354545011709918510432872263207640007667075331220140073180218371203551557769078834871500624112296253124121613614267225294297286339382419436304621590825579939894332344699253888314492032020303634316624835374382605117132043392275979454767496801290635197527906147195986467530723152173820589298793906828994837059335021938852617715620564324611466259906122518245707461132571309315108476957070154216088398972362090885055590),
  (68, 599297324701031106160636244612827529343933146757742269600360715526446513588418588945485594000384235603423649442279082177217613300678532102235746155462357958615832695353952231160679939397052504629356435416817232492957360608340201632464031133695655677901661454468233241950256167762183088591602690753499714276600899048580797236165201949791716082385437975639099422500188598369043832491476328592671380246793491124591249167046083944548742200634896881652568052193433196359682612645508504076985923240626319631835328566231978831694810022507549127630047817785),
  (69, 4158841246781533633836538810806140312296039389655585379466214173214363114427855637375222678112174891157044744138300530811800033035907145524648290129270464429294759467904260762841277581876133094064911511419385439272385311710219191620102570429294483999413495194090505261082929868092248766822968828712055903070934886350671754277266183621233966387137091792948037275464593687036591986005554812206627096752615456257131166584134533357488821609030933949089017290508754200936615733491555157204908533464368521394624001816701767264418379400129),
  (70, 28857758174610320902018194257608777105496318977546348013426191767407273640143157047661658165496391047362443948086439731797569354245957241980910879905465972105729055704071031425931477291513675697583330314051329878891223105687804893974926377257398865567463451705318344797270180403921491613335840570503961735800947258410720277577950136120232124075250549230708195354643626705271220390449444696100222740317383502359131974497666586264559958194979520074691163954155617342842223827979177575959171847523699562571952037080239),
  (71, 200240919999523540904843257677239403106820134514984313626472449385247400984809326447236480408789223496981216890668726132452234865936193379783649549200365468804596715347819113115861246137241947820820337398392149845303612117919514642360212052082945959711471574958741551921340589512467788777939197320923417920440852557811744900471571105543304524087257899616246965112000638866958950878217616466988495052892672120799562459906326670627407101660141772604674866895989062460710290344151124446164940214283951),
  (72, 1389450514909188904016423714481348275343419027566245821163247486791518632943287505770707238722682146632464318579458144011927847905827249015358904583385425522433886248847041369398337649500130566033626955461476251363570188975849205983423939272657276966827270025051425190698483344455858270587686077562799878666038018820815254930423413141468405726332944531396114436447885768609505864289594119001898861740632921430092323169656903345845435711328114949733006597011724252480253661168370263),
  (73, 9641249685878404560883058031851011359076309261490661078131705068640881121060060893959518087605155496634509506249848526214550829360621013522865071849294616548588875032083610915756966124984181475361801089721574068504611787317574394773250780549275839067272119634546823078598899079300448079104752323368644865255104300044248510627796143790741351470968733155844553408981067250763705683312105715710358814621821979194288128635379880400416140694959943028034320884852805457),
  (74, 66899608822696760160473695637357341963213576174244455310677652663646231326572822224920056191164372973615682512660297428995228901588780825285714211730144448033148138759124640343749765808448947890310784804404505866174378350132279729064152538129063494374254876173570959816672212032214777878946731411836991061579100284444156227242947286273089143032176714992878384306586609325666117702814332202372239670062125512714772456394333315743598399808347831787),
  (75, 464212326739518562923323066771175552197639444325150740033288649003453922155651219802186841690171165580669831321509823694331892589499408700188166721260769224724348204500620896105660040618055995717288523236717766524062848953629447902773706224361455536377362808777623716301708582215825407637341898288131042246359303344178480698332725196711716420137282206112247607198781953352178691841798973721521416077165413908963239757169555550022),
  (76, 3221098997485605107915820768949260604498068948021422259492650977750576484974745147141700847576329495305928030738905407690772273299261476831302554946876534785007519856871750341959003967649528124656049328534799657326756752782006656147366142806618404862616824467097752537705620028601134217527566969902438357863976692669593746301358118320279725824388270943596445698654912600258212273688843814690403750982690909878435),
  (77, 22356565009164747422910768334323144217726689910188310936655258013955635167438493314318827365971863208012895229862228204772049238458783857650400553983961709533318849493052265166820486327082911936811923001018112483909041373606548772633966308824694141353682331413226932104999291871605977069921805322712049150874210533797650537471334836719118192734555994873179018447224740789703925105368476989198101),
  (78, 155090275327330815107938051093354391400885279804140778668439656026291888708332800826189593856594169997934789953942539423291299076181477012227450847961027948189963913721018845612572778172366162800912806787517766785409634997803531089069299729664327198682468241900556452892168300880172791520338991140018898918255800103255307575643369762163027480371617187434693841610134780954936886),
  (79, 1075344137751657535722090357731288503524876258525512294569311545764440224529412121083386221443314676304896293086277118514134992988406942327002785113178244410095121322335042240714009949118345768388332722844300499103427080204652737683933274533257287135461960057935673209734416778707555290066265605964842208871468384682933835678951736562746033968500933304637112365),
  (80, 7467324762515414798553317818158031890297389529304980758842319362352031119767602869755523938862028901568144704051671525436171552608456433548289817891903211566006658312540885994983741269717634733035663257808396783171352575211351532045536286956164565425135353210082224076757908653742433464336327713709945280129993641191565558141605543000969685130),
  (81, 51814976846671518657770374719885075632469126855784119176093719210780762949027907139979535592441092257709374635585497485274541183756463981614056103356481972762334000538376700237809637377282848603113707623116492697372438898711632038489204767273956136001881071842667516754010234789506553118556726479966350680060939805349772278740),
  (82, 359538766171752488633313351710687791644168866029630114145318011433919514563147497667603754341201905166480432987796380864686368129668419838866163625013345892864751757036248909108854322090467108140376459403764440937120818287202797972505625872729035189654583477316594227585757815310358747139083754768742105786582),
  (83, 2494800386918399781882069702961600236776268555726512138468161997354575689088732022084525880424692737277246797685756520530508538107465687720032340006769897041397415444186111469295916169686432229980516562272788842919718807029151463249339351274913813785455255019483940458879789504077500565551636),
  (84, 17311247559552435424024074998516766593261681448413844237759363056214048639496601106545039844242707857021451939072881770313764459974487433992876822920070322172196430270418243743061342987305917640675151730871895043646621370855051857508925696059747445130555128278575136168417634),
  (85, 120120269260875204512954724749339676825459739139017092517518713980238669440967630974818092930893165184821025137791276438376203048087706192478969235645442800677740250388145245846060895301024669989936473022612350224702128217392175631420933036620397041188465068),
  (86, 833433124844336107050257686669626160554745111089373404912962831565787629037162539685861554696915253960539960978899077386904745859587238216810399058524977887560125927531911544211662609633350213638587205537474625256999911495260110081830441548),
  (87, 5783580587434429473891394923668884952371376575662457450976578037296362294906614025441340352502294743199479892370668698649220453076547545678799928825847334340444784913565178538215942781263376658656520397244743403322506235716),
  (88, 40137606896293065632056277384773838204579794213809852790709315891338694535984661985341485847095154586556114162265906730439579473069437840935470465142374648495884910796354138032764929083029173470500655450050),
  (89, 278469275977917190569865307966136388335705697137899814527367801050097423063293257477855420059840574070329656672931545809359444937267481729623712581576836585941645798274859550940035902314382),
  (90, 1932268761508629185755090543753231461143913186779329807400243507405434476522657683126130061455742059994113464183713708342217219375262151755099344066010853671645960327468275),
  (91, 13407813000602963402677319504564745048999874809960298449302287855610696390429328460945973922352567538889191111850938110714036756895900992853870272664341270),
  (92, 93035356709837682636053344354938925312371796378518666996263194284173985675746308918286138292790150373292907800899792646015517621501437944),
  (93, 645564023761112323481162838903032446360186698466635342809168387497877784803523221212240929875349081975520496031359696347),
  (94, 4479489484355608452199369676574045740722964814098917666802039780578481797724073595289850676046760840525),
  (95, 31086753421767396369950452496090234760300564826704328508339226066861123732097313899611),
  (96, 215679573337205119851390749812145753014714389470552188621277884122505),
  (97, 1495341029721852520688599861192196131630773238649714),
  (98, 10384593717069655329118900868589425),
  (99, 72143181996491637)], [
  (0, 371488427276139996836216300617387237583859175777884138505688092602920878204180909298734522488192032556764752464656836557964717056353904329449115395863715355721928919968721604258325090459374881518385792398891573708081504146310134522793791810332775704789124796237563134413969961789758968962024809299112689199780734216923233544081886953719871350092673895242015237375618897076779640443209541871714675607296139529715836307352298298023311691009278817721188922954966573254682031257824305984394877163996859173975964116081320289012281898446595917405576507495670771905076796346884745536421404936758465448005239355533916873765953307036865372494336368113446241598856456887729930340833162398516594639754629907816071248905935263548261212286589468151091211256485200761800884041471925664889640219432083162410217317826378337014161686831076498225680230420355466059908105209977455096197808537820563865090812699019148606383406710193469687235919389818899882655419281067711218574129465880045057534899482360861878296640607714288321196160285762260612843384434600156981053568070776347970271180369136644608469405495108352135854019717325193602914442297007173357902841266828702921972288761726952161094918773965329740105053269168848243995334480568308134238014853612037400499467947941824278860579618348649876185345845342374316866652568842284010755137760753880074977189958332862830448728681806080694127444311097159904424919762036744212696331810247455537751707239661335660734128382471674845093923215007967345428947620547516642147574085559518588095463513285978886880118186682820830645821511606263202126776547168169786260434918360472251148528935799095694408510857182751419565300196277509315253000948893385602744517668169676690272028712805418254991360),
  (0, 371488427275503764286098974579005128781760998814628508396211216081864314181385351817877195186564126172955353998015095139167919984407785273768617063183751288900540722245519536583922834202905145673245491090348541128558574927034973733312261790131884886401495705156204928343580033390644382437993797912913642556941228618754904020178909226473120755397453249276290047801759127728532837488400533474671510271724079525886637434110874942840288139744311602809215504536915026845969271240564350305475239789535557607750009225774552302666668000392478218079434863179369575839371704975166483416457488403237974696959937272600792863269916033488164563233891332229986264035416123049356779003762975565803631238149801598724840517775151982656261475738383363630566098277078797876649760546042032872935657622870392200073541382857938991164219377906827070219145560857574780554627365784896330630470963232836541661645472266054828001848248987673324150848134237995394442329262756809209113058132688224889263159202622881184065815531144610255188344698924969160885831828203916157565878960591504493811143412490927111330921102546545202738227515657843182399656051710720665267284171249355917027814149060073105804893896905054022996721689514931861703658806655505707837860064340137067568063550483330289459327475638158803066350224630837407691301804931975849943687228276994353799477423840859483509647604114073503671584155162775635041564613972302147718552708288383853388929521437023765405601838797616793307616928841419574361526846638607894496711727310006519725081662541778572652357300287624746742241832934126336354091521546036019867329726365774926484210245821578786661623778367801935199253322121372382332733188354656665910617488685723826500383111167892241216700416),
  (0, 371488427280935528151029406420025182070565872562873219487165801098605544357323295786529819539984917972420163013990413605899230139082803328616104480016375795306330153168555429944654835514889714213474082414845823634933522802817190991585956819270445689798627451210723130537416490130179987333296207696998689396936572540314582471489972404676468887257457939064287344006539995723653708558627850881292236101276999773535981652922143292573386020449581301483649549497255470194382427200747273926308791901515757104584407733516178736290298937295490101923314455017569903101609425852640213192251284598378372285220071055483289858879933065250287317392925699489580618661398734319956794332872454817684223354070080430075701924647215733474871715198677507476330171472066641572331729411434103278218612259159204701176416239948425525228936155160590769276361422277220590302458422677699843181517728737212949280962381525690842215557875584027665806419920144063964929964135227483912232714598980960160430616521041426508394271515195041192518913913906531764480626975762968213396849840475247109349221363561302995103881274536958220050160552850763665645336365456213766059450746528582514561113166001002476685184126173681923314333184023663703412401798448644320985370446064815770922894291984687095150642803430724580069600274980811217677601841448683950567536144945162420844224919261642376310518032104412596909426668147982070542936844982540182428133851483220711720483240383021472954234445564301075469534943572152825884328949185202875806759752349113544797472507272475186208895750249617133752427342284794784851546890931591723033381928694290907626424649680674612051018683687610232458906150661073805384827399806539940453334153426244130239872760548065746678372026)]⟩

theorem shearLow4_ok : shearPlate.lowOk (263771059 / 320000) 174281976000000 ⟨1487204634334384, 637575105825616, 1482099477214384, 3828867840000, 3828867840000, 2610513258334464, 0, 0, -143657941794164325⟩ shearLow4 3 = true := by decide +kernel

def shearVec4 : List ℕ := [
  10749217246655653416322968705970984911338326583998571685485438651857116680273281085700433686532454408794234287353471852596472471125119472577814466428669147027321637653132881787371572571968502285807656361180690392754432606354856193036026452103107170140589748753900723258100649622788424016808721081129678397259714392387782030724124788114572579109292391765352017238362899176612211513585866152274010860640739716040164909133444491492433250322838989203931688915552547413963740217839187335413313195657387502345088806927190209088153605080191390219063574044948301105803032181140438419981736744158075081572841626214663657811137277606261077649449403389330446264962167219020682269430862044084990269512832504031598065372200500768870436888651111129537402331141993149314811891667563909658604792151249218778130319716336413489257066336346450571323329310077385960654439394891374714463639576613996628095997068515302027058565902305062789752425950715569542147327808441065513379283212990072544538459698531687263418783980300301366242881131395953275117208610969383340314800820784619328690977894733471178001964875885233384632405749854988480307837742938137910380965544756424200288108901174444768310056797030011438389694796586751773081699398998589802847406688362412401202147938335958132849773,
  10591361539162992496147325944291878013147467291309963482938490561031505207947583843138830383230111846142975185996241314832730879044296728240267682777723479411995954252030343993549392383643175084993255591843644014852566939966502963656795854015930726923786739914036058446319309317840327368452161899433953826982224180895181113998498813937019854252334510824315083833674489846444831678943333545783727827331847492629947225696471865293273959056252218302564766810675303321309666398105960242286831595428202874528539628437801710168432528562019455064352214879054606868709657156658480614767370768660951102411763151611708470617678974171903352152512734786870399838078631428100947124733339380359885951670641826677274440354191283991436381554082266356767841531101718779127491138756687931889484851114177153495640718153226650728079087125230994168200903026688953792679510076010271245730468201237004410265775584396270142587617505806778393959710640494246863517744232528305671215169031155372076035595975226823878070660800500432611449021524329938717867176817348446902705746515740799104582982868341869724541224650906629727047827968509369402397603048026425952763383176368700128350686855221666375340193519229282500097889664996777065719899916878011538701194099697541606563282939181329087987712,
  10680656040020108739921662659730076630194309356195844683676136390393478306419274963904278145361082841252113205276864349593511400137852024895968769097094802290864350423866320376775882016898867727874360371581665357772066634811107123365198123078803254253097454179471771101989227520659771131583700441393293169035485817151344239754969934755272373129258294892092126328379176169669471758170946895940586128183666104604898542293130367391079543862485621234916117878854436317100092583952574820331684048722685537205984784046600095663778242274217406486555974011909039864331003929017393384089555630213367122292764941490560754043962423036588190735038416925584418002403614170047916733936221873018716257935620987669844830987797688232014483741477997787148361688356393201884987370508027313133427313275330059014631384486178950859709955613273038436749573877862902418205248393587777978402686658581870662380590948451067417373513004525266896160177970274910238958321857100001338250509526610421320158476234205979812828016261072197517739863021020135342311584031052198084906507685283626813566590513995302209573808674494441441785340530072117555514694066940162739841748565585689320527539898679048479227211880375548904829060824329623872481478753186520060246264601645477181190005200376127164260305,
  10591361539162999736704918569973847705408519624363183322017326146229837736060544360362648220295159707421601666420606492075928721758796352448061122480551859537244230240535394881723618905478697686494516173164347565893152367730158636053968320040705593614015189580697332721503122806007220315268851922001965544650820716902220937594477161177044781620463078247924196685871685361939297389344003265723031214686117327833475852601182844458803865636361329253422086831008834985326014520710218944347319376505946558913005532694485176442158202690849921695526306692902718237208319246085067291358063512830502994137697080277418208387869686049926236803282215674192629475055255942018481652257441647363695105180083293406777199436501110228156797567391739800518810356155688094192494056714324105969209774136010960362914841272535552963949922724078014028222476427501185385125663056525566915191575005853740350701381408126670995055221604342977825498885535563079788139022118256800451094328334651403803215115887197694053070778191936336474010651998350899159102748083245220391866520931026141590156574026381215589652259201042837711634393098137414178414302777810685134447434533080340964091398041886398258916194305445849685904757294659289879277402216428034965484567975131954514842870113951376499277824]

theorem shearHigh4_ok : shearPlate.highOk (164856911877 / 200000000) 4357049400000000 ⟨37180115858359600, 15939377645640400, 37052486930359600, 95721696000000, 95721696000000, 65262831458361600, 0, 0, -3591448544897678619⟩ 384 42 3367545681069563971023165876497008903564688640000000000000000000000000000000000000000000000000000000000000 shearVec4 = true := by
  decide +kernel

def shearLow5 : Cert := ⟨352, 263, 56, 2 ^ 208, 1732991528571479175766562919034202676971410861479016614925706153826445000000000000, 135448119519155483954010699124045037635247036044845408176640079164679000, [
  (0, 293052773632059634569565274147881580815861806815033485884486774807692442623763194350971872173251006345639326378490391615077816953477029538409374982891609420758060571813555303510990340113432091055560287392409156854996602747828056496045290046813952042990291484573770521411380516396048313628256047245185803004978312465046360964998999853998710422746175810494035771878746857569604967196487339799738805027384791117735858970185958842703609380569100439037114826370946923754041641134503598721432300837743441831472092706291147853520710652459043685313758391914003001122924641470295437249226653066687636895092985363985316928572811788458124976338210255548567340571390414968084090623686770116203573052923326107437357784743145923446931957192861324541446362893885580172795214191045849711703866943799363335682908860866433059810180078462360269298944004414575522750462567849669363016165548242187610994185463137649851465447715246275671365850841392316906169788312049355207994299302235020913848050447317023628421196846838032622940234912759480385838951397968349446535294224336472670389761187121269096411851660041281009960267003112683983839201617976064275913517961172044853748008892246930666447478774570226938976221009876456631551336824225562671638660451060374452524886580293103287042059556881210165535397449664445093541310447524653225303499948624808268325613090194769788519970388464019845275235919063423348855909148741763685325954126683571819961315543382425701201684466895782689095205085337532578216568399193864381268315817272789354246627500716955939778492864791031791573972509447269406546991910385904703935926385090958416034579153947328503015805766069910053055564193939881118828700074673414290139834032572617),
  (1, 4066923145746913407516916972706458707418364343390485148107801659300672994320577516523817574542119717657171005117002340937873663897253779182333477699554791750295366098637397750694565182263708413847586362083061660215528566193962949969033060967412190311680807449970273416376058059987236877831806458693079329678707706719148101946017546840395666566269041687274503660728168153258193294378033449314793304418703437834792632310078637801572027072503776057296654462672631974871227880057898888373236551578495044368505615229401694597491944437154434108488631926727831649447360714132724252831838668972599499991378557257434814205525412732517281227498052799280102990327263180128808084509247072093380668935220300890850609377011737841748781509637775651973649511091077699150048339005007763480130442508260978135319661687697098561109537077156940900895517506978855039539212415347167311415615161021539017152669912070645685340146049712286954425187593438707321477386912345383811602022899854801793007667593687075491619987335985441854359432441739134851701373468690825210980789422034739389841318505520188517035465130976140856365870492409654006869475587145081748099294666378606800168464538539967649074642131155526494308748031945999118148714377221371217164330541489447102566732220602637326050298921381142145946292528406690116551656702930023701736854192276572398620099143774931067585156217498675111640111201893351713934676985147078960223288384860362876274408455844231299330344481918504936119893940096784628256823148116167151612444986443467654576900246073883510026954491929712492599029935842830940924217149198229898931884276990926676893972836289339627166911637108600289348275257657167735861148439588362),
  (2, 56439909092757533108958072860724644423005113069047485087429528665960582958089377898048481190131785282722408861489117836538227517691131806728767747687280598534332589632585405181391172238611054157636353791724482739794492513680391749264188069314869106942859919491241520875469990186199096027138279721319911438086981711171905855608858385804003021675145737065785242401166722894809058861021793306913278563603042886919923056344612749339201868408965184682756881592647548365191665531368401943614514881667643543456450593048248047515409765258188869350739908041138591404090184597858953118729142504255742954905176272463989585655539204553530286098017382890904805358658749423952807244484010644300320379359796351120649636343187625063150603959777803967040872330097878722106991879922582441908198796636181999648125789466691195831882350860308257090593998347132501085029751645664053641726366521173169860855251811915871575137141982733727031777458152540366365015426980960409196443618038338889513831584700709278589607123029153390202025482699985168168588028092295920078072826248917000380423662278774815990268270608768364564307089120263002423174664063996684471478968518648737403844169150149736287549059572158595228604069840979303438261363663520807899516912450581159021007464270592095757069919319487414181740069305395583793312967651445568078060405447962836687926025853724233922256399794275201425727958134561305037354881400342480697619836660030973955693063067742678257532035690923540710130790188610580645470300365046581309210289682000649047315210300788585030312848569553871139272189673926639930779010274192282748647943196621218844235810596746866324797437427394900186174000639942972),
  (3, 783260906791551523076828321508786872667241450026788582840161485368532954054253936991959467677127444772100199113339681172923973277786987257213950095293143953112019018876447939917246590476436174051681516143926328004878209328894424556104183898969575297804316108349239693773535309428121205320407216861324100358000561430367338432851243204711696826375284636418272244979129115241275095308666353347177901624225184541512711538149302373549969445281026365873600139678717033283076991756216516223408871014616552546251091351192929136824185995601717470130995358877274118954284597912330140610505897597135983793054884963130871832562530642090056537814928333819163242881824423013340957830896081055394389704648959556828130365136932025232257333282323878555944858794403337022645625605935813301020308688351080355703646900372304836506989370038444686731651239070782737952631187629336013465436214021172505516931981225365282418676283392863745550804237342195583620213127910789834860471507703084468421073934858162887669873886130621677298305656725169428275286163373883181866178742135857213965235044891473076546844487925680254565850941602910978618653220312213023619875478617079950932011102211339916005619553273004874326280381324482326077830693996698769530944313677159602290125970868239274997117872971599515188172955389393874335778230263985146144055188512136636472760829356150086767180997925884949810546505022000490105483730567790944642908165613043276589417701474523752270935228748999090973300373218150191181527424597363827635670527876580740360861270301210710085384890953627200323418958145894335515172900522867723405502921137348475714709754372078230505721540827251131),
  (4, 10869926854281534423692422835027224431150681413043305086180792614722885712757530352165160355962635197880133678545102165893471641679417675203972694782042286280251979630376780455066431164307034730742977727261947214588104097393430014675758967617750516552653969933710341833660085421875951365214157832084884662038621195988797652976429881274507181194547295228240263754083028318535174290953011841288489845154755408950490326415675023927890173866949884277550385563239639526529234859998723130766203038046558448128709996343704077328979218364465524133318588409638775054947995962443786283351080263153061506026628038886262182103720151450839766908268949292188995451374075699528501557691111434304593384269408390627475079646195251169185403443774774220177847308517833355167263903418456373415950342305394760846875218390226157551639396707913820494306570688113560044570239446622762245995225932434178108007579045845197805486312626050326218725185446076564850257501967913214283729522185596124414821639298787780459603755267949161877236112512017783386336911460430283775594267749152082677957506232008285998057315428277705840348702925509042214156550841333509111530235316554221161793250005860230910147984592593663032845371680722711811354504457952340238826386522227555641695304582866105980011398542508032797198685228188432547954343002702520813769784333103866471587357989627098701796859602901295485665093536216311785695857481400134349899589551666661633629996854227152313476589113690338305632706173049099350016264499389621864285137528456006409288825149441303023060618218599282504972372181603726387945159378773966405541207235093711572651301598956329471),
  (5, 150850563465774874991933990809268229694615820048950662353393741447676854645245653447722037281961865473824589722468361970335886294730643263216496779668783282368937122352760705772421486913222125658464548565163629683057402030321352371769444632748600545811719915235914928181567060392222854080741258648672110904335647516318367831460112714119573392252040216490779293228182708252227197448895652680508569476143597970247083624589774790737668639663877954450027153592909351073251921129725256385669474371377312125235105842915515699848669157242668683994210203182926375671579748423954777820347842075621490944843370812633671237659959712899977320537335101144383794436876671890034148790870884823994620880629081780523649920789135924711721128302465711416818467641306803072046115783876552675209310167557359897598740374516774024285018293444611273416200615351094739917556787803470212847651798235639763828993770868324257481882573134252548690902045749888784706213956808463515656371981539721204035196502231849389852339845825293733969208112920728365517555835803995461290144248377878830835129664170261034431303173545429812717014407746808564724423559877916553257776673873972587348933402348460385954168678920980298843422176511050500705607710752308939194746344620917396634518001568595593266390439622248780804728010343595605481022299327479331254168640651702575698791445224787150118173951546390057704454143410610372507405647154931176653645557404678886177812538559259966927571498857779672686996646854057503954765795223909434050317587252281327127487746164853133056842694730015599280015151441045895526268243030778833556460275950650554179),
  (6, 2093472222114038776282455055006862496723942694230812111786305687704677204341610007039461371384653173516292204010183354592653077442560084067974727338569714878654856857799416130298592025133585933376721453348881095623354004256203243671369254941699228867568248917902766081124825951347050774122649467651306029369604011468976003090636004780100013011480610903760534453191516294733836292814548888011946483170753586687483193683252445794236230621010887980028097676086549431655479613964265041222524375107246346312249683663813281124229361479484050927738634364925349128721761151454540753319380159618843996735073417996251754176109617159774540168596348300104470939461581803051381493748693533037348713854773217990394189427650899935269332307416491781035982830384257040724651026644023636249785010813036236979494445161005771913851332819617299118507378771190061777129777441742767388816462848969166420555438188641329055887976491534698882430466579144430654572790983897258554772303986571166531780626741622056674173414350884230709847193482036118247591620465511371381152640187709652670172296837918034730191344184944738357202240570100108829015426443527953479464310202418799438223258410739293983278841424059603949010984927582860821185283440328254956219313409403814267720925791629475036379014577740643398536435188782321997227934327953117011842641229764259995691346557980221293606439616808809742199209595714172508224799819474048432331210289243634302118973540868413310601989723864706083349016220945763038278206717653280953413800475510513531148189405503190162950349557895106784426195094263141962504020478544771332437),
  (7, 29052761730642299753746345644791283835811335300174882599558480822763498430405103554289492728506628879365289576553572566316720556267655062054613105519291777071840855868720968995523948676168424133479451069053433404029540356890599651467819940447123945513244815063786140923986514858110952737295051974962849093094506670202995110123236461400790806611985230625117348460753660952254868662444893084797274689268338848013353288256897998527283449712438183643474243502991855982626679556437942611365197806058319080170556237267992003319414501734304863581138716017062779021596788841351046190142771248019298195214155860647167428879663104521892490921218064798731339441640811001934623932422782356475765417807487389957470108345745232707008007405108008571905422452247405060848076346868079318153564705229896146401163208819017226449898415762700341033362572404540896403345979879460473698893956466239075993273246557613218881748624881765660897175656132024791488412371643955340788178751720833672881512424354166112431033315014699872528685413502865674157362874034788311572983982465324163379593470600672723073147275328879761729034417779344414410213172900723491506031092357324947925227440473077471696592654737245919270823305736195834612623435775716411406160588411436932534701549190665651418295377107227384202432051258965280918653653796727867285125166427155364896508960822208829656491635502859499842810674292713095788949182032291441021728193944496536515863217047821155381012716439885020310801855277249957449327177077747675908302447431093965577244015110798843204511883684160522910148844798235681989590),
  (8, 403188059280991847962079269437800662452633459623918656985646505724114566430728291551713229916336173575711780746385164122640855190874027410076891036148172051073457038085276721729444617529588803225575182697862017469828799019513328413908327836053015584853706059787044503619350503031087499912054679836106615931890877384494739511669256053554174206263766727358947331789465483523238811857548321082277084303831243635316990790500816252880899948248203482996710028425483003273526272648019037433002512229198703670385223520411863529495796213587626051921838189316075264559229555706844308150409657532617921246371920484435086515020376969208375312533994106831173880849160987506690411918526713836907003064764319993533901689708752003847712258654563010026247768375290863999026700579651966857030062955209188559964182725316617869187005965062920090437694634267286441487949844746008398820551729345471458503181047903632669031824346945833222141137576063618690240956287051806987686803379136446194398548627591186417475269266853046907136826834791498742773031993246531437042417826369134328519484950353466143587619846212193343441717034685926921867219067650120876921365109055128237662807229574578850367635584397359923362093514957817358129004558645301718772018257014972949408568132178809333992535741176644889353213499284454623667317811507822984389336475093696402583283138922967828191256106724028794805782553986362461094867154421588236681175892105491335500846593873440786587400157363689797227020753905372615192817250922612125022192849247573703649996162639408018073952664593965758598231),
  (9, 5595358378419153842116140250093078653816132198628630311708816730025857402764661660840097697156782413073644670017638408365767076541001752677726381770453145582522410228441554664366122273544384258669774302484477347101915717427173860407621519436357558451809283153275497136187162531420150876727922012813845544152692020264541627052202255114570984563191977730515156583264432056554376488655868040741376374510109950550533609577647206012223573846368655874040764015811365090273507037337982494052502223115099895415915228770814027247363833551332954712879647020659957117718223819048434288252978553377429554668112507474779228743284828981969965339807359905543582059465057989297953838731889411834263934919385986123028321290796722390651204715607174415476901566635564584236191823688360198986024888275375773893492151320034781180266038888388386645423694475374231433663522338824869622836032396542566010888545144111900560121052520392633027643901519819961126032822345096746155567821567818880858898900382821203744489963227145719794388673329977557984677494628844906137234426192882558174805455019041310873737808959802889059809597170611932079217015072005474275950199457083941610041520696811796082090191212156227954486912448540925722907908174137583173631806776476029975637736324972584563608667877279594008785558196806948211792514865767862026043775863069285877447428474432141845450751170325761647730142637583564391310507786926335348156329778697444650659359856389310364095631816131201317690990314433132724795490645333447479653195545641167901450937319983623030108597),
  (10, 77651196284377802554977929414057270473523060916175840997487285863046164557695324353985130513124730605405264366241284311732342098822216529983199892518934227409029755222748211780526039238100405081019795137541052029673887673851206202088173447662262782616131357003635169852432828463183043164557199393518581377259884759916968529718630613391031141923079148863613829498318340048901004024747352186186534077032502505723156201248035572840249284437210398112258334393257575478507014809602624556819988066777797546960538167426740773146900568759433470927130595824569751801111223554685593158122645981387849883949356394959410272579206074113073275193128288651837833509099888658963745962550100207363087751081598222371226221601164350598294263753956784568626181918434828875568784006695640239982179034792474747164497756585291072238085997069336610292749932155321225359487459874541624928788080661448132687835751575323246401516924450941000619795998817947738809752217447346711117359814941873244689148244012332943703034778309300308022649014576824968007858086289800182695120982139207911597286334097200257560253724433204150470307754285175264334189098553228613705876819858835154195497649509406999780240220235858246346037399582946303564804804536537660955800784258987971454614803500364496082869466801306360314493486366226784946262340014282367033871663362898009173920033436864643884240322127737463249288840410581118072808458853048426800120708621622811699807250052548334721047213345537658451609277019413098134172165796963854521711023965386751789889701),
  (11, 1077626789458289505077608421286975559719785530411897987898033576173344995951481340480223365790426846467437485247355835610094373294353940353802053645407937725698827947294237549222586030215240970700510183222451130776631233319751405416464169788390486312214892999737604704184727190447944485958510368284279346098408083520510959667008518581822218024398895871299951834458727551939633485014862785064095141218212871135590037474632610370663991791714629459708689971376242912830485337975918418241555079854222858964313037150341659135998021449166577747306421329626319921105951678663459403155501953536405411688061630159657080538174367764398860424091589716535159592292584022264337447472935945626203264906784305966436195090346248988205988265758385618012518450138765787580483487413388874407826204156022301189144222080975382287040469359557121356802258904203522621254354668937631127688444810326137371251882359039281025887231780743306042039092820388190850464967718457579657469327372476180738309378150055321151819269609681114705553224466835777611206007524056000003845040286590321500344755214090677788973147465068855216969403894198156244836170929340305740447644281906574814606532792453279719441488109017635549971565877214654738120975403449790646119750415529675648031277720475464204099315557851535988074407637054869931807370532483353053387802064869199233664790381003621753057136628682617198905865497032390244169214269215358223327884308432184131390070680756917953566947910643280208242823039201877463723888521823732127814604787),
  (12, 14955076414157407658354789795257212926401584648397362198627322626624037823890296594325604162352932277408795375390724790934979287052307176485346303801919553849862804457013353672189232072115516507370251472123304134429743890670666787835399220270712407652149630583712086226397792427738042364716769737124690558410359617526635526135257001109314079592781742447251149058218895815302874539212086394683157577249377090327321668236590431247547162097056529930854698096308965975188974271579248934645756439631183240282375750328274416660296497178944274531921737090126283286363068932334598523740965872751781786929816042211516024359388473243349727482184104611728990661933154579984821518800556196825160351243890604049773710159752276887326795167590474615282353618250248029665665854773605513168968764023257109894220815632716267219833945972246256576637674324238381896245317997842417419019610048627789392898411544209536356950094659873702930350202193126296965905691586797578171640980868861400560218553306671389951378739801379537837278647650158906661523180298833080238555267771847030666980514929898391502467858080478308672714987084061727991346841239505334162972400662722096303790136650234931251898242001362768915506083112543046518238944568259229719982030445270749195696164073527563329746575555524405715934416623776208960074900612075356750005842514365716578608353161801609381731308211997815905916102911329129126438903122406254336848551729836375887599154600987383613563869852145898067807723861326840570716859918),
  (13, 207543307174348250872049472471610372494495402766478366040532097238959206871168937394974276481930381489194844790127438489396033721639171708707327217620055456770698653271903331496258236504485335514583688595021214363722448392061830212444845257667940609429891574923446820490974583700139279836643150725939638915409647112231639515132435391072313248936232058907212368207483249200689337614766526890248021489917210041753354973526346811431605051474688254135631658933802962835157655877752158616858416198307012595789340844886473914735513592818113040259789661854549180700968097305278244544651730394851910296280741326791453438377955002118945670728529668053442641757148545718791133865740866124236270190840183093208191840222918491582304184404721051479701877636542624753548961012824860014981627725135243788157442311982637532453350677121743725966931351858131689988907079060954115110038128797402741865383482165440099388365646494099381342252993954975949184010295411731133652415990860928596863095653288272187039739094314931133006317591279764558090650382060368495516193303210979763970085536585982857730343809683057333087901782006319198977912821113570097560142740545815722451182028085087175291763247111973818226591045414127297014547233541754378531430599016569148425553732833754034047057399925671706968080086111690772017113532352900925438735170094246183150516875656452285609468885719256137249621524449316946270712363845325690694712894112306400903054045103550981113119208889681363957769420695),
  (14, 2880242948662503871139507269642864324984405542255709245510245326790491555037580472263274128210716007919041931240482286806180059870051752811275076501116293077649114677709205430676310954049512275598671930338947149582141052407255071617148159540624305059591512652897270745369022398712350173082211136322486179961680750421958041361835414450830057607342503129262931762028082495530262230549270612580260932891552567042005788586068267947471101092066261570789441854683221422128160413204630471715743611969582745186905119353713776449120195799320599374205081559864764466228822782019812540269918183566848833919442049385999072868390071492610422706635319460483222914923203527575281234912758568783246712978794893904941465901150827810591992431536772788179010744438098018601522829550213317646671929781678463827829293123297805749904197163051951564459979962140649083704079298748627201351397641489774940094671889651164862362419785958690637633788146945807515300566113562154294643333646813874791563460700023249405627270070298442042362101011334001183740627652733085274133579581668071448584542379852313917226657959775648116190253970558691154512644890299946007383205870806848555498280108939430586270287764368594735255837629949601328450947653449581863945004411291705069171517639429007638582678387470560594931942731047373926344760349443732688876483242970014687907955628756594865763377385318782974469787948675837599860152642730486363219706476294267358524821098600545576727885581428),
  (15, 39971403082253799858821970530184443545751846414776781794017316543377039447644898359583523705964298327013101581525956642549587816440975318306069971268176980965995864928115804392219460452186889534607521409258188979724439034726434959991816953319958120054812657718804417599558945171961921332083456895730246445321543285080992480550817367702075964081104565029139942265534255399739513075060855430388053241503382913680844520921976184311201455076260951393260248822433866835043536854543607010042744237041829204859425721948204487294916323259065720139141964343494012020508338884077857161266752165437692764437130678901601239232242848777914365382637190216516255733560897862672441027245576332337969118281789427794689602646081683991023582431080000148235237093910614705239256385252830704692328978746024842122858406006597093716524951048703422310705969824404455113680346042249792893724591768689357126369686711242553188628714897138297249016606322972197229057560199082957722601459493826761817705436772707806171802495747446860031811553899923162395998063268277657174002798259362936698728814521111846575530278371508112994234174926620706243407587698580011872657273309155463514415204268578516280343399029418778049038685974663417487943583303165340864971512460116893795279003816227032754003791956874819178937368949495188582686211874846027309305398808989881552921737117466118001658526229137898818311102935789484524789620921072253672814519161185205196022702436996),
  (16, 554714614193930429067718511425142263381337240735131068659160913070500812675194277382583584950113764966146779338190431013885058327757698541945877383049092523682754686020679907506811282431222664029659299566268729352649299171390295460934521169797646509797344327842087759169585718451800344071563945666725350702679942401980002615122741271516340608111588731933341486683842059705652738784647137682532037719754364035887707206583850150587390898403588762610974410931851880572741943706298069404148935331237032264932977309559087702067484006718797372801539998791953688252338433048259834362651434700567043126549456104499528405780575199757241459933382208520123214713802572256308839663388150183202459507612101106850085027583849753254514133958084456250922898493543603905477871262084305131354644780532933275849424869717215055163760419651820439271149396813087267020540233639682288606384791338936974833825343659307648982893230591461789100974449615849258399600996948915989694400336621599730426744977288471097319596363995911425382493236592149956554672682750673889277445955388641282762714765707106510449253763063013291304446621487755174232733289848278636018700033016674446404356303152514576393705819044885289670737595809286411681120726741187175660037487591234442557105394083124777410130503220607639617819729862702952684145115316538470909354604963756635307135959298316261213557686701298773652977437829972249700396736403091023318326923311991),
  (17, 7698211595881842022753463874629976619376088663302114541674644403765150476030555147638785485274135800391131394149281434552796127963842147064442947935131745221214905691263576759874581273088039816776294606087055549102635131616527446114609886992390364339461567032070190308712037664076415066976586604907154191643320164773541503722611484437598046617446980002943549940509697395601858877448783213523714678487978286247469867265446645019446777512153951011199258999412468232319821315036472267588322899479598364476631922974798468301772243804190582820568954005427463109829711793915175012457295282982784926077652101591245421820149742112474512092927262907635213333222964525873663064417233506402658179253101518551437540538622260350107412588616513205495526140167492196354244597023603151915997313407661132426399755251182479611477928031463908802740263164456935071371016414116557023447383337392893711440623197923879047848007439539996070169133686312276990974428392809695877849675966097236499342853533292968230211972655072674791135157829247427984098537347052514327949012470339108864097524589296766976037509545569198580842555359407296023841621355033328549549550698622315616815513785841474863588789207185489180171339405509741734674203819623049905155069260463683969454794217422853262405086062160217464602993520453454768634553010556187443267868859556471691147509479051980687751306668692998114705895193355582507933998108829268),
  (18, 106834148606530342322429649146050320941641927018128451734302414938078568236694362264886554180303729732801987383241755119943136110513447389040443179592673946984197509354729016257053091654835490448565008498613999865034407488534740841830744815076701038560813266180522639011575886282438351577182220585847951304805591015665389720143317105861617110489720708465798192256904602654031534280079715879562528804898925182364630753033233010858054893426615765966923236576772537914869028369556299029095711592640336701652376965678794369221325681141941249527735021421068486284072515479999461070023394304640408710096951123443178211721587295655884744388562131780831103191086555849012491819700362460488662299847020935259608759576483989857962507038250900679479615470620110285252578178190086095965096357924394205100367680547026910481829268828509749384434845442933459420607912190834461221263785865996678291910976894306024626348645835339758337347355637721981988499042257351400673105792321829845471593512775413421903782715068726792113965556948400808779798590668879295458271936245353109436075544588154479589002460528347017136874011010713959627918018323153059416503983964710969758821901205580949413428920604811022901710489379312430378919141797625463871546398348698297801607099660743234067784669776834805674216808603158498536284068940417485276633214156099049738099554377840486253881162683018550093214133346540163),
  (19, 1482621647731423367210909333075231384142639216358601642713382866234941169179368761069482068325155469881231352954579825994716722322079521974020503402649485880139653833384997059394040615389569796396546676615552633459303130872398675540488639745093624445889023567726864230520972541417240848920992134416924657142285032845874723782328576888842663299480258220275543118249463995258364860699201158423461762670708157559444426407085865989354453563393049088444114880497199526971815826113355490529769679984544973947076508216451905274086738688258754132976082548087716201074679256143693761427225822922917888476533296010564035938114230301258845361001047470611263466107123525965582261868450216637784806905984153131200530655039791240421966375441109270486390699077302054916175619869175748907723215450825214853179254097179890376236510651958796411695682233604212906957998393056392600950112138293631645183708483797672233073535608146213127745027131605079945151959365127340179398034065158775210272046429084708422360040201099389884272531168553532414922569608275253985943250041320465076497950876212515843526378593913311227056792701458564208278114904798668248641108084041021907439083830204954921901703034859270632828523694055527814041331385065216114872302398224573242655502781567860659184772428950180820176238661441705582187616429165416253070233847775349390775730842555456002592862936957320045),
  (20, 20575508391282481496345131090782927853446900400968734860710131103504832960847025331152406399983199579651931256883229916559518134060016822371672708041520004143597733208993103740527483071314206391598492795969541241478059984960347457386705082349705963907019383639308378764280643647692040509647351485794804841128477946416050382705805782771543349395805296471588783137456673785230452818065465948304274979078766420297433572387116522506420618564018482579120898264860515998404815550895490240901946411322986702865098328705510148395676891519058234744890118080279514549780835269865911508546720841650077323749759289271859703624345942937408788587328666617117118912879261564797415322376442119677384755638818818051306737613287780166199438081912871582694001402699259352341042436400736496147307070984177083636472106541871600152748565868832832939556584050626337060417901079188387389805776156643776362895849398796496212487341078681448011072096122291519593640270253379917317963465142668354920090351585800458420711486582842620899441562288343227946818509279056767856265823562704307865476876031678829597980801765507720610105900569130110430591957371582239359317187177788519264173555953079872954123041726832496992932063346985420643251354499194051481729448530832178791919297719235018220612343442225857650200270933814382124370435213896070695686604965796759132834176504267096403),
  (21, 285542542228279617864261595081841161363009483334877939650712268687066299160677227465723489602200458194797280509984013001753135445975406857615113760020187359565362219599377806359000789482267794541548800735121400006102796071482554003564633958019496547269611365046052067557574411561855731611894785813037658076481053258044121994771413417074298921000313480264562425491377688071461408171528496294323830239832782038937535904209573766889889890380016464182079683317259028271682758525248991742064169770327519363554777938703599124457986630911669898711503125490204476977001617660588822205142513709540513336765075315737523282383188022366849237109039428003321843729897082743891178172352638919479400455087387844130770206849967222385515767138490528335457874778723101138463328972710053581269154528923162899312695491064428644507832819381147475363848629888294728950421864975136412008923989882724886388800104060090159718499345119354219342988465839938409695623032603497227430365373585542260228616124517974936046340511086222174473184431668580541402546698849181445447808694979550885425686350109774115600286118573206798452077738712733971190690190320827326742597035573142228062942474043556092251814418035146069114673611839610999225226243021681966809228334926558066428334525168697837725463649748479586920357908360885353495658215865547619910111230066539791605),
  (22, 3962698372214778399633196630490745374449809806503166085282137677902971253691791089867653100419207547114898484070076473112607216970717297680287787721691448401364371006284906441956838535342123095644328091541741533790080121666342727324754597869400548347390143764595232962344466326214604968708767919058235817994365670777628899503314809538719837192030170287963718681219164997779794630956593067976562368624087039009314232229985284855426223039642492637578571039867360811818232378330062336745891656080632575040344424918910203685966354756336474736918733440818383907255049099570266706093094255097568895490220545349276740254970844714351474135639297811838984100128882183847021334564705749065416709746184888521936392484511190939713093975815522446274230816560999110326462648579648775766844162699588273209951558053928406712034704697130869273189511521748254066755272382675730880843139707628583158142292300683651750710592088362618979998622107657544546226816364612669374984458424995961372724164931039060345108606982614808433949757169402181917243497568839504802462728966505932413647575441828512575665735299764923236633586472247550312626444239567521261701925108533207785148860565487250932825297914793927444396052148184517401026298004076683693301693311849580397042768943951642816742634273169278399972817845912620661196659114782863488652),
  (23, 54993493247390050957320807177873524949848388106281758522868309534234499096011400517680747285580692709258559203381975267323793362746808709004700929247896621835147702009818875958094394605974674643828299203145058490972979422733762060494143470254303591961032957483132047818193921890260945032259916194606826300962012098579511092270835523426725809350272070743360371226675014355166484149984992768063835078173102498764369952246712720658693677947925647283088033554239002103451270610184185199751078631469485371797689752188638775265160185010740388363838869148721097034142674103169374650961621630730591021164548538682419998524102674431060125873827370158008378200480364653531497033921453249117379089480106844836112636371942832896697975206953145880309700879149777225968380907600201755391700274676752784826939923541487442356378810316361185153498295007160595787668558362544040992453280906456862399945963076025048301845849964093820533203768059691860591597993325587858503924637805608365406997867638968238772340888722216651587137176645939230640635621224528322683743944187842051747162432143492370729394886679673615741276864607822553959002274500647399230222870289537851242542739001439143524770632484643371579034139698658933489772015783926683725555342144949844479078065662192887570189299606427081552550370829265163186363),
  (24, 763188086077112183956275606862605606783003377087510197191356066182113246011554915699754091881720524325669742166981921902998088813515587431153812236178524782978359465483731505927309700596022411699424621095238419727687256709003889893133911625324384843597552551749416447786606454544475913109429915822134510679006939308816466174614859586623679536425549143011586647468106518338041982735215418339484544592108639458095438722979379732425081051090234895418319448207123409431078903263506741503138184744817189761434482009106320056563757630416914897304082216910185934254911318397581948850786345867810974582166299251288583484412524090135341120441137129379518532536169953228845340913096625598566025897273726872883168400124137167803537153932490269043503236709076432992831285173018245717263487930995863038274427557092573084386360251597844731957867140551585135321611797234565949525523776313439292235518331616495219102055549679818369242962080323475875628648956312299945170574041025547040633038153837745765214974434972966119099032819565193971647850959162347947737294913987062612111896542385017101097113150097743606691957805242583520153929809023045991583254630131933129034033922621027750399587176451677933807406126148077257004070212674175792393593631443332848715382669934370403535178999442692827495395),
  (25, 10591361539160575125656951767754372822510032413020169408742009478958216059170011437733519742721428828869202772003036264858724170413170025716160035795503147983858779976943358200637624116873577342898082925032518409145543342410241323193959047063785051958525360217194431120279548457663836329753160027007025764589418760083633351253696363444505235799298842243578711097632242701461776648305470783341665258191986894846969221390246857603486916349109019050186564175826615269135030277419623589570390490534321292097465675738993306054818424758500271567625869300826414603621080159445408887354091025388608449116019391415845538597193692524695292379697983896774681592931427559539685602464105526470369099616168049110723292922268072838804555559160967157031509116341372451308279824047449768995554100061292478055006883774788040533853742474601379282347463364704739506653905476066896263759433474850437010702365626704379096144381194861170291356437451891847525889232621012359098827304343103466293074605486043837859095465801317372941969464010134313707162058503034400169558604180557475348929880594215070802557148049602830127478314603057505937314888041890084153185033080952666322301671466086096975165972736317033966837663469036059876362104465298453785661488338237541213602277113966588381919381),
  (26, 146984665075532396003010936883202920038341272657557220259105829983790473390494624875358068552668172933957651154234087350325266142322116824443365930633172817200375799094326835090821577528892985462943970519052670585205814473133557270454574593835382951098783053553118021745024164106586106812045785798247010863164442013191722145123014478907340987173795507187359297418781710636731070619084358102836113017606344620687057965508541374957985372088262122687622398546353980099232044981642585736146445253973864989675627160687294818047487004811756290694405558588764483692944461932301550151906175235922882576486281889383020743257273988893270254223158257732315784612084374209975120741119773107987643150669430889396537005900517738625467003055138948834425336905371379653263900962712328605881723251423331831774275969058049153952402220850467722737594915943118053356677094522039125777778735892013774024147077667444307946437773092484284155027690894652781737667510613136125490237118639155027705773913791835261874408998057006228791975660059497447405422505739042534249424551141149255730379568413761947322096408122406832854708955559487376092350237281780933258708828148966581274830884530067168935242213310468267345884499800164518286386326986513112501499177870246517063978790),
  (27, 2039822034010063517940548716389834647814259375699554948615982964784673708323084276653066397697195431010633314750854992808883304506688816009959759643133361716551027063346180319079606430641181178880539214210162776641582802578657605487930913539040644241078030121238357496297006095179684555807570585620843944909058833396170793613511918894809619822148932151648472562346108863481481482268380325256854083616238198430635451362891948459866428099601633313962505056818787109762844363226934312086909164501891719970657003320976596632974533319341381328019772624151403333175483353719955459258745339136397137808243786405146263292085839281478735932269893982248570325578205322915395187449852182862467428101358058261854930003905596152027102518409972716766675366049639028450196548826890334034188733403618878690760139551283137147887657909315807201389882227327474497354676827111851200542949299168245407653016056376282436587148172552605841086086351766800398904715630376063014548032364422098280450520004224412523566702049580805956128120362778022352849197316638789980709073287709448870231535855731836776004770147917033309761378184340220507139627158349691325643737987864971853102333103633603693016813675004369209176488553275501466895963938846503211562600659),
  (28, 28308217434615210654785490974918473073684465278519530295583736840850498615094659447241218260467332121098458882734707845686730563512372532027096748887828887023617691901414258152413948414333389254564667960175440447140025325580229773124362813655869745577141048659148754684797262918522491890732724260935360109474268122116525482075535304449444871674565417794899126690463867081273260958173291740804337037180272022710040365291497164732575474081668867528431948369232096117835854376687783514332498662822775976532598666175483982143795700124506314197539597651074604250829254421086502026592544787398097237289622150319214125900888078495348285273115646050852738194297856430991151649892446050348468156923112825407752479568152437816218229037327761321778989918336425274391773697494437825687418490581552680693741475634546570357864192350913952067129849912735015092231520682707334716671800073183806378742028118814625269606628363109999473651054179595553214943018066570111459411644988922334148385370178127722309448267997595170634949290205125861875084880412156164053364408785634582031418913085327338654365532413789357053128095342687908928048658473320795116329367626610656962656320848815001036062750633610096029530834464538994069672373773),
  (29, 392855433652085995196594702449280975011152299680498799437387903418618768677353484524446077976887777326828985415040474733003041161198894934577405078960517424955454368376246736357388304036258157311783917207228563425620236688995358021848246072133078557002794027441559282439796593713855379332357871146351791292325995617413765132050967915070347641454218188152965772589572089978198244137854794657836134828649672364629609048967020955787363968331241983979006465872218341262264156691832688882420814287072836520884753280518148185551766016676207674824143508894981150954096006177669682608544253181144862798480415115876855356525225389862592180010829768051322311702817911060382347770514850401784051210098497568389388052240242107662123790575339915606535806334041333381566991391874981229401967149038139247045426042712157187821536573781765950654516508235371564565712456984127336242001786298449897646691663650956850632411219830392480361945213241890642532318633105840286082512836909441937613793203093735510540939318158538343344615314137651401045625213815793672740544700180490286379336495715772250201502506133289208732543910253666151932549963523239671734481701414116518954227301768846647410412628751856965029650686236),
  (30, 5451964347370580266047217678794602492512402772653282033349657414899835554095629519273022943182019699106389207296276106935271449197306565842057191158349463065450754208346156634609163685764311923606836833427374224612491965702740196253303530130688513999738080624534987199853195516018012585555199476822415403793488666336803818814638024739200767138552935405414083998218451615465173156650177423643000682228360864967431347210804761370154058425691843369797275677371134279448945659747221913176856284231362121639671457138454095331917528570593737760304759575117338887506378552643187874146254099422636228006174464104275229135264133385888253340914801341787166529934011166449793027983002323216183957773228848740162126979184636916418129669909369517751411348403164571420722567579432123540194640035957934193375011579893065983291635620249031834444788918496532217478196342613713249375423410380660784059347067225747010014987273293371172355365069325882358801025404844782326820828751247694108768827676337932440347850660195267106481934709578680533013615906538707442865803765684399334807897551023367226142726647444057650335006850360461883245820094446308538434150197098650039025096048048101308442560185397),
  (31, 75661202380326665750278433979525275048247708912082862777705711290921035493154233988837420958441710513326265313061253389559257555424281227633029633279988290543936640001150746979802301113873030614946110592328207798591122872176408692125743252062198558112839107319416802069746259595805160763851058407752889213025631465835094232011086512405071207244967862567872816717930797269430000266002467966048895392004308478579897903159700612177092597414922904075255125396237415841090372458669688920854100333389418887286195535952413703226762942088218998366530313434336605100267694660563283187392059986068245448848112400492742430090045763581641855104297897829099192769744334407800849088004519423324709922415221230815977376609477404411611597117389259439373970442470328128876923549115337880677937781599134248162733423185256421189047848266818103246778998480924559247255594133992887982069907673523353184545726190701337742011983813651630681547321908199778428139247776209191942643603701392430700021402722061462823444254749651384132646392992247178195123962475246981304111899411459452875444218791273154659513103101440253959305740095094879080997267054278623997724491531214511803035494033295),
  (32, 1050010139233261426392065828962639763725868116251069581292188290962617974297443919406387445120534576297366305373168714728671207358679561363036742237724600277273447854604764486264850754383661828486447679915877979555110339015422099990256857258980087632661263045752233981747088012758174469806708851667223201881611267478228475798048527690340112817527564650826001634897619437261375092845379533399545853135813637772799247857056681969830850248764952392318814012087017077637484263652207497834769413881156866203824453076569563354866518548081355423323750713182130913439351824858182463243439558418291071720088311620302365678628222263511231375819890739919121086188284774853339932043398244083148211860833821402793441477637095438190398002241466239591103385844448987005696973296496064263977281705265639260393571309557794288267927727850750116799189873090561162796128122138723724116485944613388954116588504686498161447881110978718447779545511342327024285096754754072958364611756473598635873340319756379552114902486580544958027985313430277204790241068989393903534728662676441787696171756486459193962563378102970933818853979427864626772114757503101589595384261431043),
  (33, 14571818425628326705935348203323592744561389965073252139546496126577438330196365310007731450682519643772250920549128471426359193089869787558586735628606470242460334343509138248889479404373259539527255775384097942914094857894465589778815301980467038996031579359865013056027881758721040238550317348162995215071736526569415761428684529978692849939762685986950307231499947918002161722709694558815370774216414638677540363981613277460163718926717597790929976515014091338759479133528869901471497776201411212151938174370743058830387156085138363184087495337170367773311208575960879197900683105543416424012356428878809841795866067472817682645339262043838536219037709323841279711881945164443080290030537658668722156817140852695045544024947307371534026802718104855130279751567971809143884645693193525681708303222216939634200942579280312663074646781618194316036235058566399577749511901501177620453481749879254000623863362599259344025150637515348173314338176324772961443673955071304408742475296317730078074574679696333276604863030315939097655660734974731411855004850483139780741112380012558711805524698117949881342008445650477162814781575043826),
  (34, 202224596905954895385203754171297130700094564003593863249326758478700286988304576971620579405087556584127345677175538421503932908068856334995929238542323762721377425233376608109375702182074780335859926578238314720329544315928980664243301820636711758769628476270394402065330213829527163557178945051778226022023587596474426654001996558092979285004526352017889183179782071433192793104858172873374231582368574628224883730045066872239485369280998484097873046410358636263111555136883344845784864634766864075373008461591253018458731736536576988585806415724375554428791688835097254599640994771693115820424103859762249965314290420921809192997911485534298668489736568205483370103333399180680872256907144191325253967761983413899357682774382536006766934825443392486780574411494084354514525760742285587480905831879805182663262557811849495211883100060351176400764874601916953545879896446732144844525581846525834816554489861319908902472366109081202858755000439534783940784253044953262246159461486322088582407355712125576557141469500858874327386831761670595455372609183026911565972183181970085144096393253693941073307344590676121),
  (35, 2806430007137843553523044408920666098544700206052266741252768282758842041312804839576089256339797233452924242638773209291975771361500089391522215236828302877142537633829443295191244875670748550323561311120354145121434279624508120168889928123495368548731936962371835105503153265243215622785652700466592476560038854116133365479003426941055532629966342251769989194740235443659466016799598151805993428221009579650743587247044201278828104096162390844281651599180843804816264765867161900738818285795939346539544551169057492936004634075830223485065757951805609747586847356802699175924281345747703008580091646530394642338128732416726621747023345460553214800083413140949567525241335104461157337784238703658314447072290143233928107867699814827731955639806488461454793480435890358147581882996016253691665636052603469206006659812069386721122643679243521348824820421826911624499400437981362250864323381137227903279759089874160431075930394322931136314527704174008438983246830805842969565398463024215185047012361685329580452505958433633589453490953861260158391421145615923786262847021642838554302462990308983988),
  (36, 38947040667281689922753149178258681471220198825052053565542883133284480723667593308232691562275063474795343654472143627836383681199165746358980373926918002746602862702567317838045631294907320519546646690662283859536677824296653120899540627699893104486992965395565575866377966214287430046466487747257374246878686077228162378306418007334941799227981571671845165309362166032643814448854168508163913764784141236504063621272892814179578224672268201368023341120585525227726173990750538156679758221906958479495927788610514593721284947139108784010300115932033018042702860216297692643008033517356657748197308519660032066416286960272434115924115435405336553766722509854339227781018765354353327761861478589770515952661499313519909859671836663601898824625535746843109297142646657054287652420172508680921011409024655430042566624724620134575149381208183072660608994687466895852582037819058994033130764366378814424793165190324859118587797172674654348538762577344726566212242837768300905441764100835491318449849384874915257365627136844497752688337807748059924447848173829918593726133766915093746),
  (37, 540498768499741456526350158429455852687059811493638015925697950577888692953161764473728637645225416111656570568947261473416912701339410431357497129764665950095117952859170424042233610599949545442267774949167707175448853644749514870289023989440333686680239679339864896249350254645155933601187423515093725737299571598035693733316080793514180772081125062096928549363010658826349507391480038236778982062896415244074249381991863579513039425107656259102296741562040490933475390424569000551010423616740272897834700535388029051448006660222620403426323512338526307156994147630515535020774244452131908736351761958258213788124499707223718785387985160707745739490324956014522913590936718904368397865969695998689119627031708503203770226917938232610883999384222250008031254847067825957662485115464779249792980612523251583117960571637615587173551634001271351479549139784232808025446953057497210498531982535917284895493133090313591113610934042334994215032203251317191604299754217217501825908361949469334634840812735719307107491662496195076370913874990247220105586832756609375432),
  (38, 7500927186638523822195396012912827821472568995045506510025741091588333187904359861443401919627911501059396343100368366169765906048162469232391008902043806487792737246162778615563888613830587951342737228717212751805129755449762003863535224178371831757288822980073554295290621101900849684477101393846516351323708989219085691319992076590070299836428206738698903809183358315343429469026880137256804320828148412199219798622024243218311591233029848420254545429312835720070047771402833703160658882687000273491598260418591006927126699866595894228136419278865323997363077352188638481471864203959684527080100099392521703628405655143321436623204818085932415042861591366466321036982042497002007919548130083247338188837351999117629672162676916965231470185415057475875175593571097555862828389877623586965569854599273403787163828730005105042450112088183711705809301283326074804482984133392918811368538743916692218347956971543459456447899636196456310288387478042381815915548823109409421203313666360489258250121930817926000818846241181944483246607334371468282603),
  (39, 104096275827696263553842504899640450033709646965511848435153888771574137319730907935145689574827819081749192607648675568060636267846156808553773512029278023564045618545592287786408460687595133553321707133427344903260671387749305226569681402285527229336996330266178536549424820118258159826431005802380119829795874282899951703259097989223822069333366954516666644345775289522177705156876030591916416356680557967918611236059237600547144687857988076344554934265577495239556523750994901775537091807099614254221826593080162244962704447449345562024496045203506834786364678371222057288344810224778853745785952939157919297348311858969111823687967200704382679270011702133223134461296754768472101975657999177327766124896506477872919969019242089567237046847221165775970123594559694069486007988188390899231930185574055476647128832292809866682699491628818043312326680989458669302535581399574635100209976968307198642775824457619946102916652521616246623194984562425147969561034191922657104152155982632300257226734032692851008567815618338039088607),
  (40, 1444626027240097274911567417511311039408555482694527663732488396756717805058757980261948917691795404676307365172023929007335287757706492952310840914522296173092654371867507238544777970368131713942947597511648483854457284773659019783590805472682216832231042263988092309560122983233293954152558207206562804195816546344103263363522637658344775181827758624185334812782099831914318498023421613549451085915596074962046620172607209638496107478931869633500621777379422416788362934954747194884064436311008205505464964852693517012636989807960783592790548517443632336182730802542615233855741516668967787786328377946973014613632383804667840696603311080709650669047173208899947274466129172936572605649884131253327402890152082309844609194748532954932208975230236840901746844609495855976190051572675638728507175248229926372742639929728325160520038333822720529582554504962745625785875964697990752398152980900955250095868863302594054277267528955742793525207063623929897376114508568142624311649544770925201458217122114619630034039),
  (41, 20048213477418582827083423246837365098304413215320063583665767691487444489575945336365352790064627529234361783196258998365516539498376269672765852636717345506818350227670944556512868741539811359850516766455162621102229557415014277119256815480471873935678953464999807061519974983557953730368840079005191506066420598932574689005872089278705273089494096312720797792872658086047513255033163924452997427389072033492905296681707049170401585688509730722484281159043628956259911221897495105638947524268561481834839922538774487635493060573059042324438299015739399560047553012991791756409637676261814772986039759913406313056338631307848208535687960722304005131782408585914604210545565850610315139340884876779479362231890420218694440631606454720403152628571081872523552557430971179748256328464055056817030973505551110609371201136339042088192174440084670196025476265162648106373517543944722710219369615957302757408323392372554430363779547936105922538475573125611786758829745461225438832944774508034615657613),
  (42, 278224857816602486187606126443427338195424815828253365170315395214942912980796368828968284043122817527228621564920188444390545384156765081089515801257798214549875761332250574588231149714699088803936723473804925392148081222729396391673003715549937681798235682183889884831043887078263869347714615731308178225163554483458982565363919528791556530121335110058535444560812092351895811610723892914303067911719402176282810571405609149381049318788563406377934121626508697220493614005815372434219574464789733000769821330370171434461783169574538857327493216378878392900680485890939927476752016240583939644790681673283652963014962575345996821934350136272807266728883150255872425671720249599067721920404453261827414806048744132188874162510645926346372020294376938001143038543606142347301080526933194624557504527443456108551626714663744335806032219629761833844306261014110658070396570011566351704768477986684966590324270183497352390270012253819829697185149432081887704391056725304415164644750),
  (43, 3861145466762820353690065426359755330281750340907272516705638607790006933596423582929280203130503311309942081704990783413803365536931148069318523424237948893268695696715797718366609840113378626424946552371364518607945019584351184061842863583795531765133058453031671397979833488600404687980290323455749361227349524183570992684244768378462907361885828319962239313456463961618468362690376197602195714670078453746171091820641989338775363810388290560177377268010227485288085619732216846625772215159131581606233403239778293131267121555151696224781416197366207701157140251908267156267740828187493673853820237957243492222412618760059502178960956976676711350326034230288596416261249984607117791096453923268808183553594880558841129539657530814695567996140651829128666023134439115175686287587547530488839893444973084819113550233678061698239146798080251739433782454053076369126618935708943332745408505757559613271407071299540344667111610476063350507719006914603480908638240),
  (44, 53584157306245952362464280316879755581073124885675656952608537039546338180150502773096193047502294314476095238316329273909169811192700831313309366403034332935870910024287391532628270408878467938963851602008272724611016250139852387856527429472118417659384315411048615908551654356869680331592391118712956201537739880560608204518039073478595673513125328787459613552156263382942339463767587159727523994811423385078130226632513097554959584812022675034874893503875455755555558822768030602639869867182956489081816110688095653238432587707199629185441651315725259522961713023829632780502904298288773799232132748117883574778408498389986985171902081898130834877638911635865900624714636368980450747825083437108931177752698410483432437592030624355836739329042111143816122515792143941167430174275763480313558362778627041773386573010770198026980973902798817771741245594869001294894113884317370913562237038371004916495517869619753828646395736813674094358415830),
  (45, 743629567407354642365950035496212445824780769797669967838111008719680030236380645620878286417687163395709413780945674526513521974293464957880602983737482235870361662687406635050921195332664638448507232147345692953521163558755190708661910725967614863000074035047964823674528279206888513398966020880039574359347325399984284441117204456009592024010760725006146314234802662083692773054015643763159984341322562914712229148784573082407744812859813533355515053415276510085329983583220432073692637824791210176994380169110826855232732589420940007941595329199764060738204763244024382763025083646324608957123412056890279506316785413853262303244135580029684094480596978412358582700033692907706279608638034067557088809569531009446518663866163003367378429061836889638816822497231175148441145959817388455315141398941675564057499000149736824836909918174824974961300475165983479216479257035095692780176890350663907238108879326590721736802281353),
  (46, 10319933365475604989528096415970293715275828952448882051055983648329598592174067221301689020439952503314387645476443654009118468438696290384751852803453644413166326306948331216933712344719688214810605329931609026682134812156267478862128653520144377678678537676497192396450061723398425959937862567941465639157068021725376909465706898471062956135785415169388157031932599667028278682408090792792703930907531291692846653350299619246024905031639265985579303681876223601675767214528579205242660017123344754207335714241889357557731841354227917322054700505911997057450526687440682843517487707913991977627362971709820834948368816801843535772789445438729890218023426840553305930257766894139066327247940525206228393099305852039168964134135702739229677494568058878624624040396054455987153902949386566813081237875608933635859536982935896291003351890199479106473008942082952681178720554513746317085617288412157162323381586030),
  (47, 143217845140155078145262813033282356554766505285814593179386654906374962666943230084655506717040790649559732606609557741348275393069563802378429259665856402251891787767174199871784360720614461708120258765762461564946937851429523863984888098644068482203286418135906592555925969692174104857325891752268193830142205650361808522051218495869035929408209004247626082929914676798829355170886120439584100900464947334456340134239931710512022682802234264625037269201353972280460769687518243715779120214091678322515531156683574218313456362783510600286965119068463351688366413779375574231216942889776932578035629419985268687610929943963743431806040211991826300784423945546111574035486773919927849232708036846757795617060134066518234513752138101673507303320870249593702835715292736135422551676346035824657296246398261658768697129749330470192507732952460757016263378022206034120787432660732764511636860945355),
  (48, 1987546864584579359797397831200414487304989528021079110020431080829694595541365996641975997191292143510021255274503240258220275839914884384252601828063969609670122512174932323459912057313543294558087917766640556158697758850617673009476731208934162495419500299183778100451896679031670874610951146792309542166375976459032365026930553580167544483746335443492220668963950265773273465385724529403111991019664114037024840500154353827505715822730069495687739642266945560720012682357336670934524897778109283829346534636921681783002667796367909428266971914783196621539419235331440210011446620273385227550320146617930301315784128557006976266742389147127974386898244618219810125816599580452135788263341299853319011900029890539290851920227183351107696941176944134360029274474902167565184904398788699547856712472292651124807471817408374335156060775385677313900888996471346186507636002335573),
  (49, 27582753652603862623930856299749972889745224862819706486375511790482149168473866001009417379265150083191692282552394903711157401044977422838575597056544393790453517034570910734350939454427648597782227845655565992892620047416771592258880144855552795283442522995629556257525354712015108001962416768312412392155019329781465714495158914323377705725534811989441779824063811266126385545637448550926238331242079534017204366704848840302990639042324388439373500624548269385706997752866401402606258700662028981261058007433121651043348597825411604758047120523330067529540430780065441448334064743909096185037564829590718241309600667893644241138693073004668917871512023968448613226574259409028704057766908077767876076495172292368348384265461930811355044628915964825972315278078750488147945272294357376875066211446764778130066690922428647717304304286912557099133186743971280),
  (50, 382787602346055558565502441400462806305892646247840174044051956361004180591117742219795681440886570445903573680224373302012691424263087247767392610575151229351071413431413154399436249027195444302602678332744085975020305675112425654517874839886886663300681785518162071965492774532834444719401046541203206349220763990116209857104641982986512502082876031856472982222177243098462156992879999263388296990891872499808053052139534740173722753570181391231083502999757165490203266974209124410796789514483568227000778668157753106882042737465873325805111042295098122422359404457601559155774185374330752587909516856246774423672767658914992861094877012000734400538129129355021448729491289185790523638046920230226987291926070664736361104163210454241592501835514136859995851962841570929114769102541829090328913109240622271878781902072366569663584131330591222),
  (51, 5312245182667820255341619348190620960871280367244611179138506130948379787477278945430531901928995585731149268433245570544137189484561170856256926477100223944448555832155259899343925480912348497991790894212235228131311669414977534205428643353428793231474399316406233908808635768265586778614553784585213400660348155057833698415807266173511638455683193742130235218835824047374740372552489113454921900635892124746670030823787069698235074940054744941530224545102500975676114578831311511803753719631984658037476559129877965740873324244166795039242511219995511727323530435940637161809658911101423130216837666194462447568214054841803949144197469111530216207604148294478215117348278476358188310497014932720498633150952962085673402938379537614853479231152489247133565495524504229973872007055122659361508963505444487959034452792999096407),
  (52, 73722210569846213426267431857268207295953438939075199829095738907279179420412612253768949520191150641407123581832121584596042779347770241905293197680212156160778842801458077186777202173679180962064884595529998268162230199366480716107955739319352536164198024998583955057820667377049902613425411051006287499281691294182324431131607273988724829241598315052322126251857578646524403352313293849823429176615415759441731977913813476675012767650523067346949171728741811250206494627013326908179011380383060282677372273063302523037745893757341297557149894532837033471868123945740317646637843136589213676216905757534422200515530723009850582751296098164890183579584153915829596011338863839315446439284539479523877973538633931582191882635256627500293822769681277701777979994562358176886110372984052893696552286798487864148),
  (53, 1023101189034096167849384080113682721888289323452397962956849159269257486370240570644763662144948776012040497292240128813185482048101186297112366691091629467606553959930126831654756810054968387497163510856648249448654064150008739326075292008832561596506034145323996833253007324664488892081324037964166320349733649509543229116916792900383786029636165485120665772636338160192913771574580035477750312844960050397913329490499374874049986565217779872373621509292410179166323038866982085656647395348993571191827032814156078740996047802766519436933607020195678523567550681695232751037968735626948159965361772337105363503314889847757929977158110462989697739684106666868795482703385636578449065728139091837826329732974391756506551413055125534440979092843219851380751495428097050216111416319675732756207),
  (54, 14198381290288800901185016114810344756936748541204570015773516577307761980396470573777694437546527838354203081330301993018416272145982853479113531045372370656917049159272948419797344962377309724765331571650326761202093713291721814258877271771946540858457847073369192707139492058684303836115202591078213292671674131673754172690614695958697212302684260654498934991066085780124031922359912008559545663708391310053398941062600836633414889897209831425567528009206180555461390926130592185845745018764826375961863416963069147709331878205856531122336671111811462027862238412157373123239362857147826682512122394735675271427828933584314313026334875347816573108468896498955054418616231427176500685874482747939081870378653168021778887706809140320438338272390807492559227654025427767639365),
  (55, 197042122950135397835647357698679944520218516696808608489729275465788062462350184963111898294531113523491782527915238010921673387773056262315268564081605028992206651393029097218038260141830645170252259147160586777102592506546286221988533932818622126118733373534776299103698861270202344556661054231201862133721581019442584600893445524180043572777403599870700656588689154534197390929217660068098265637643878808302190270012618494290583650228353152275471530751906297966038673599691536414074104602104802382526001955529683117086775525973701174671628268270417609660849822973508066710214618381400906812086393849847074857438790551228652444769552748879384159001486190906723830601572511760659096144029384885484346863015353409631447200087389675489919465128637949500979092),
  (56, 2734508768879468035440542222444390185938886550044167794379194233845982939255794445485279737573104144743304348264789636428346856982588099001484631202947110750072687542314850683090368222913817124181299174954844192514615786079890369515842720674392139403917488456233684231080470302264685924203865469053571147090548300973969529142754354159350316954345448159052313675361324590284092704331829385359964240447434917530050628446388661801512395182057285286667317065935412400469775562432179750443110234683671930376849285326124729314212235092802853759088337549819868148402121058449224738213343982277182107954897774060795689120526201994143756928911875224587935806841145361556259971215117549539650017710959421049106802409580267853201406461377513274584093827),
  (57, 37948932455714579497958193707848876993039852985981151695668759724548398169985333421094088246456378994480046821077478728515927697394483614774130278038899527959028071809270566361819204280428777589250285779600974398431608131044291525350085653535961172110167753496749790454279599129539086512877473721714883401540971253676606857313491543357950663967791126599821845519373552009604354375530736100858164989790042847204934371306440703806281913371414316255312350672884115559291082635999607383620849849985282132997087999546752189422395582321532149132651910271085161377255044089454605575730583093710895335521884875253142286740499684555808833062900874248018367185811941140601974925156526563937173461133125903910244278767195464917166779274),
  (58, 526647232117444265206208535399561604474061013151309483494302208885925936081690579647405913148403580523093832880116942426283560342983843176821667800634994482943789323641748320233728004337205165313854976670933628090567585744481425283890771774685709749117086256275368967931799243780117015394526310619387344909595898841100586323560373054395562201976101093988493854020699326740587721829276364554216345214027427504154228383272588403569371979221676998026956804000809166540193388147854505024242959746549780189072827294573803184653379999397530535319588839265279549930308814996184135094382620975120294671415919485911486696115257879030145901467626422728603533815277863415280033124574519312855137664712328517388207179434),
  (59, 7309715694585337596844967263961922299735705455777470289047154419139040423483785672574658231117684464030841965844980658565809391168904911499009881751215206111378233915681563910839624216432021470203325475852846371335417650509013871990567980868781755703396985721227478988009588452404618256292338644758300974324658540420640652862620818414460846619383735106330662147659979837990313298209809441251075038233302574863842215902497409741236967772924375614083840158633606390454200540545104582502209458406313209283177915038356057397481486873778685406839667556890223055413571178467993234194773436375331876141247562686109477028727742588355070972395330337151208557175106456729929863977417977466948695328538),
  (60, 101428573486413633953393323806174682273367916811825414113153534288855907820944510683512535270095706273977133683344283178690295123474346251969013900315245058067215553604466462798976149429125153974220752027588508498720173008606312086548849216978253816380792262190722994821208678730311829091608852876486203582581363023081708544986322579417701556966167381083351500886819064063612377144539713389173549975227686012794532142365535915911903569882187337352974178411522877329582791212899030580833479725433715711364531106304870515194955137380011852407558572187608431066150714097344963374334513243910772000325207370023277050087965830996805299583385668892074930329903044929001806892679198),
  (61, 1407604136671238189285575798130685917516004125640850743050589940038870638081188776321422002129187714999142588496742628917717597724135827928970590184465759252664569355608820891810900252430619089622146566474539703123638397414947111726315772174092237063688304736803626639481173690733393977682270530974690816622988648485128282526967602455958987057840425627791337192041821677990061877640524852679260164027706403809059851283094340157171758311899654732993808598381340999045506775231804125391586294099791673663214003806920571603985209968388461560684735416613325422229364411109829281963912882721470827230616437998411369306804063256092725644209034810779334441434102751),
  (62, 19534439390334495221084516346071368850879728496197458953535517574625830828920524171752721628611661782645867240156681582701741830037206354251418172076741893058973818237240502534368095983670818532859300933468396872310881422302963249072719274009524945115240162531919971551478899074553978933108161883954600593426437064744920174452286246311500585178537665342820459428174152866224048343779641517610322587531294363362885969514041948035646979049324186416196733483110064295985015686461099416182699145186250457714838341898737638816074887348579082440678115902927189881780341504213778958817361650915221718989597988427953846735922039882538003733995040238),
  (63, 271094695665848090093025227134725726247739134390782540725396970003072018068115509092713721598488606048661403307190606108165946289581850038911378935722081217181632591453986969475130294763826320365785761852885762060515640077312945667144046673342447628186440139853367279977265548541063436078809763333736858484193057053308045127112022612567091991366720487044862507598753228694432763828856555792928777773627100920761274167457428918351660179447343006021418768201475973848118593014934594487126067180314786383393300912670873456728183165434457176269385353147381679662585141966804614652128358780353821256148050531886177171856155581839),
  (64, 3762192692078627835791943491948123295731201219096767848732950003901823732049709636635988329591824662323988306047541850161269562130400111678135492813393455574925911118449604261778109424509758667112211243714754103431666214723887805657231741435009777467952134719993806393248639706053326385846960820275881721277984730010316009035060982973260153169961498581886014957464709275593288283244301553344094524648647680304956814327771190625207329083847848567794565453583371171949449866492616150134865071995755853955455418920788841687399988463260216750357207156458561822424895727015984242976856077586712622037499375518563),
  (65, 52210939214740144060098673355959595818790192443610281683623331699110949966727127773020790217021928866787646026798329760060957820743369158998184322286272558108520099621217034762063380535238842943802986837966851461391644601817762990860974892738258325290145965744630153198898779554555835644001582053776820488626505811432005215453322058145823119625421915352646606559729558010748639366094646488478025912366623143215487041992833114271755877737812010550154264862553463161330396559184540332928611653371364394409850079057746524989587309529579050486965970445546349285640165370916043297567632075806568),
  (66, 724611517533349632827910838614080494960798978474290429056091173193529539234857794836817725571062365649331642835364887536940071964381858755658180193565629587692234805085096982085541857964450476462373927614543190955777781279839340409231939758678989489445763316516500096375981678109612418283209131180879444135394687417630951431584928150116896681500484689118200797636567100405460293246347406980022590869584487340346542530583008410844591433721647952370920140893651862264621095533616429252029064351343907249038169983298503476763800677549184486670248435590099674491749455485268604),
  (67, 10055461125824983720959845322925592373779116825448602375786522992760778932498051141274791704393203189794625292047242750787783025750742957099876682806439428673613350009688355964123196575787436382286643864045281821701272698898313433195774396967532902236622886351466040905007473597319638454901114972770492321731694697505071768472081949562304740446069045644575605384025531100452750612775544130269701130599236887371959831494039935861534735523859457619477014684485657171957618554085025049101514559522848280206292745968602438022217141248673199283640726242715951123),
  (68, 139532215103206565351984504763308355692872980140877804547437619583185157417402035426104750590509847593905879082351940676573295160650072225984996045142576190759081167683371328632654234883004383903557479512560192298406473802066393999141132550789315791090167540529413194139536746260011285469017613499620308563959925230371809129132849849048480696259073530108021610028974476942832687111980316171572010621834885088180928379555025881026291821533850321517144131631549602110660773279231502957097106101451534233559847611927274092614870715770248914048),
  (69, 1936611368684812291849851493708792258700269707349794905281944894143465837150087789418882867693042454529997249950492190204354324079130248061670008514620038472619209587818669417278017762287584947877929559442155575962404006904159452919022939462499988195959992305276052158204266049847083295535821555865945864502010379141993790301883310213394542900764359555374052419342086514453174218012465594653669619473615522189506710656393229582361438043558053796969843088376079188691869020881504902978922833451745247413120856625075992538152),
  (70, 26875881640808955861495701929718538756211240041757313083616553623062041953286039414100025088094736955926021930799913682985711318212963748637843818154132448066171307929580575388420822366920023502579200274899111756775276172276982475127915226645931358482101239147750151342877285688602655698047167680176066545578824944408589884986611925982037172732606653047997913624050531217562518222959912609514453454845621790383285445586407948087774677405949663147296709468768018274009783004305856993744675241854549338647590),
  (71, 372977807687907127806325457416466432099209632900613388920105663742340820378394291735717162355871546689559176364247022022723806497447841019081102544116577169289291573298222771789832519199484436828022970210167187879030418818566192762084944305221820260417406322660208709164116581158893680161574554174783008514779773144018327369430046898029893535563728821994506717496747116603418449397283377362059376116331908287660481580118290317989749213026216273014790025769866058306200846211669082589459930),
  (72, 5176106523384112543083605263222841100379343919583264162179565050925029338020212275097025810318127167740656212924810992442845029222811833568903707418013748110284736219406004925999800469207921600907367234334547203686857186875152345883629227990693175456022565195517430912808288866546652917483652199626148563598101823091024500397753201688084185793524529842998912335521931330257407770296247294838148685107404318530411537120345846774012579533023113792377404804497300399761019533),
  (73, 71832906026532101509801950998192192124363644419124797591610589116612019232639500746628061983116075896663569651416734804303185794284384838957692707205513751782790950441261154741324987177292076621972499409895097427650969382207766422446936157257721026092911613598823793854587165391147890228744644389250802413370297937521746693841555068903739544114624600464306208195289537330292572856714569271333864657891391282891604287886867378131829545360191380482594232458),
  (74, 996881854872357258568391993927375318724084044094787461446532579572613532783768498727002579000937612812177134198987016340665820726506002620568018604579521130715577020623361782459871150584192062814315539675354254838471558306378463963079870546639827779731953508135062369021141745909006634921372733749340185428571357872737717006668470926977026934121684436316691765606529841869533506754333619680120453691929492755540045194936563405613495661484),
  (75, 13834632707516434346870320915445477353825282100546753828614423535071454609092472632678252207555959301207524038287504977879917242947835131228571758041744214208492294903627643265876554478759710033165854906284465971546482910836975274028553274041967055013209695300296124539824225263792531564077386453699877505301046947836159401753619047945938997009956130828929050597468694787702353856165963771285404518696707975385053656248275),
  (76, 191992461531496353761811906800234863128892844405174209694993975058274146767030580667875319104207944634212450041457913270273685207872413840252285295389032979917272398617114610226222123470889464612939068729061009450935273859864847351453578509387093478949615223737826182773810009546817487102465652253973221816881349365123472185798724357776478967112482662545975363396251389887329172596463089827265933630143923),
  (77, 2665185122119999801692189599538655252926388400875299521714456909466071834847198344444795624417373677851613212718662797086674486194381337777891610098088011369730059189371528595995882613558340142644305423731806713209173143569875379688987572637861282725938510524633090350362344556447997211024329986178474032700193270821516865072738013997965590360563752593721727049520084506954578777040838333),
  (78, 36976403076012329145203264323396919087220917400780191555859295626350068560587527222492355571355710196318658183715355867473558999563713088354393617321293853350865241733182515279329335126241754087300964186664427416634322749598905385391359743921009214044153663218874039441324045420982815931686034321898810582057131885879470955674298034727158655694296132905221638117945787926),
  (79, 512718666367697747807316030315289655686146699475262268524147579841102359917811426047684443102164596801239954486660753267177442998483829498649531132938464261060613955329154360940644990825239547167181960711992328330674362403676090672053016618526243273120898031179069541937610842980149050120851749489195805984197140474005892612298997354608109940555422962735),
  (80, 7121395612369784926407124611595958483739348723179948111117456382602789272040654348203970517905522450822014411358835386455515310799955397896751982925470650345304854445135461075981852082208933638992272865276527881866119891191642681064130787939892489857612912234637063628234501274568531085216083161921256661124123326564049195176085235251792),
  (81, 98829225247710264238998394104342891570801547505930127535259507518085481063200380137655288377954435381703134282459799776697843629026743348370334843488631567813458966675970929006997619210902139896176869421095989570782490380715085923200195313198138763857223180837897520585390590268276902835629039446219748690766707104632344),
  (82, 1371531709142023332392523782982597051464533228245748386328083710308185997867112636702855604031925891487355377007138273349660918287375845912186617808440357169717224192331631963843495430398292835246118102985264243894582868991808496068581863992597787717895349960358181188170057032336767839301140919676888023),
  (83, 19033816428515623467953861025644036212325374954567543918608494738166619149537496326054764047807122896534388454120102800333276123580658091555449958766064674589295448946161945035726990150076944605742573263287324534743819239795109302883343686958713988306962071313400826643330209042913644359),
  (84, 264148977120632691163835522721430413691581706676544944889988629158342827539101807302134943876426128032930363359153863071107359260870001159231121878089701481639464248932271389185949522603881210283064913981827022260199748881177974965259135199618835556373113978512153889495),
  (85, 3665779701564795085032468675054869476243363142795979314624974085404992043872333930647718226416547752689713447807211911775179752257071322456582071279541141469912702083206409928071863377038519844263356570664905262070568249582366914137675553294409587586307),
  (86, 50867876448889549310851475618301177389190449813271278877819808182870213450654385052773517306580445070028351892556426194758037206201985668388800445734940532750619440527954792576268036072689375210201434083226282438443487517811771260230259),
  (87, 706003489677054384037346687244766958223342155839442524387245658735178049428688258876207541312478804289001814775248342174381412653608675029875774693007972858122362462666570577336393796529729429172219017479918520003666091),
  (88, 9799512359749359490913035685861632973051005210593097124924734397071718602577729303043065084085836281261304517481825573135995893324068090649544061327113579272708408959086874956583861502681677457397562584),
  (89, 135971326161092379151313887096906336290091768696747076081120820200992188642317232296699897598101941246542665386133318851327112030662236372852630522106658393928937261973096719672567276369),
  (90, 1886981212410770702308168694121051550826938529370329104462977585672491236837370061762078834138542502239091854212046003266669137015737614585859098290877649658762026227696),
  (91, 26187136221562961451523629192494421598687000568804609214536055564427115894591691282064793401818966294248786379486420191656140796864025340007415288795441),
  (92, 363419362147803450317811373970279567585635381103227145769366083587212401842583890329824162154025003049930509888318466259131096423149112),
  (93, 5043470397736802192923765492403658756677899169041458352821196705798827656354179945686783861314370245348067865354832714),
  (94, 69992023193056382551445913048431536679244100526636292090966580819951966543251664957066561733226251118),
  (95, 971474754958880737254996800768160079583773509408562842215039412108835704808919735082),
  (96, 13479973333575320084050762645950753053572631524755508586326640859450),
  (97, 186899783100535980894997029732768420470832559753329),
  (98, 2596148429267413850294082868327722),
  (99, 36076624593596555)], [
  (0, 293052697020687711831656258445927541576782854093513339470213327518276116929425958352440775672674163601419111968635534288674907019345710613757711314837897268626126603637344000475245488136287004318904355730875073128092743706401449423499865649754930026361807433592686683108508231211527861560850988413290999990111189983441375710375295102484953180909355785748453304634625141173729466013264163035171767703321261254766646735093866080947021263253817838698383917819665710403393681405774761013300453355037279591848555826130270396705353634368433993021029999573955991315092692538763495543091079904313726993140177128101548536314173983191525641055021133262507518113016938754384813682153714652798909402584827758481538222936284083341089941243518113085850820323271326881330368851039308798012816763955011571009652563836182279045225498851936469182965602090419007045178432523380887542157194894188482884596775599040613824602827047242231395525170343079558200362069449086956607332891422188937337733773904534480366081185187534180400371551730870712406923178198458753870667938611605192563252532290877556016628662436386351855674627890466836866624078561902719268823898353390117588519428547874434438070510387125921684727746876009571035059707194029821626838329149069640417791888339907038559716912481733521671203327778543493333400834431991345293595774162934732314116562059780033644268303922046874772562360128977992682136136818417271735181849208301595669606381062847924834406551849041327804463933686040620224620567605950910212838562828814981264931443876460963572768610624697313183086529135973116510614826525040318258447015743035124987071320060113528424627656523183666390067004388665211123712856385777100253276055535616),
  (0, 293052697019683913860823005281715134835733787704834861060583834304099465806273162035993447393224963747792572382466553606060010496020488322553426507180731588926642185651803917895628337516212883506029408336804084969472525380860652674478477220683555823225553419701295613065515216240138308476974714059536365548996040440093657967730284335848564979683892810470894673648133986097016779659405541985988304137874778415170567216300511960132079852138771282971557833779220091712313315889193055690042392866462153150746489839193499714592576960475555523706171578978276104563382458237380280993827660778676615251418284585118989405191815787671035799212868054786640343402132305388141959924762744073081565193791995963964579610715224329037617444455212859845705071472855428284406985071281451675882318137371084630863662388611813715519894818253459147447693197205896166214695690031464900873372709509529340336484249219355796806159682581051512784808402890179546790698232247476933685663066603409422932036954146009303559659837346938204849736682448223917363781808810386383027969848960665949262938674931539503116608510877796934756457174396395693667865758095301080322525694180195891339406062222684877618979143336551310745288192993833878008835853471615897953803350242620292921509002941760781276083473770739635103647814482181048447372377964620220814871792637677092052119557018082311585361806962621069437876954365368628802074986413322629796613435714166942449128938945728644576186556921074324337405349304679141216694035109949688878981873023235666073953732433858108677879426617606980851213032063942057306450476081957417712069774231377218675155551134825548075310327391589469216739300335314377502655466527692588367853620559872),
  (0, 293052697028253726179694609612177632085256569877083142290672036486415538547631765088102779118293075864925853775862265052128587486848935277839446750418107814546453290937535947731945566344884359344087172902348902376726791719213671049836574977644122984129538361704062003657547292134600360941265885438439544139768812954843743030364616230022146692371706877161595892395260259959888639014620047649205373641368601519277653520680545682186685653319226593506134619946155854117902812286129787161515977222434463664338976955025890969861298166816658582252184206482712940149291854571215824890629779947028437240343972002330987255673586021175425071001578735054841056233319233291286286390082531191343429246592701666967793250425059670082372178454270647739614581903126665624174930735490269382146493707519664805214243830058450019337210450993732842499920071855931851303744402911053275461983433654523792817251140879071360232044759294117480589972760995744035657710026496801415242258336784467119872573031792384611006178592612999335896744184822146323375591924683751527472204628064887322085417871738991132978456615955534474082277941184718903743874173245170117146550488273463143525741505214156664754986694242351779567082695310465917191421310630884343020056885476076250074267501306813887298790501659051893828369082234521093211131703846443093690746855249423017413709574052143335785871562571400912261121492296866171684029114319552914471751885141562235283724311480867886320083082533033777896520112737521864238279023764055650320685069402578701379281071291977844984283759208966857871199236643347224462451117605533910555598899062652242656145653290459900875221411886165602915487914040407648813764085904468924588105441400506),
  (0, 293052697019683913860823004597232389084812955417382462660487872322475938822116286090482507630519470648752557048274183602121213334588798952563896936712174566622915052319627831210894319695029434247285197762943502346457390308842323071156338194761967499340503889247629415890714148216365928233749712982810706491940631032214346459647640498821528438488275124781653587529862274535185782532097492945922729660345924332848619622288081839153047391925586906782678668092750938591538110886533861653280109585906710810068128567697655271076014136763503306158988384656882070862457020541302775370757431333410720543857700166289774885632683304490129219935643481725149701780453360017388308340647416654514390671224962869245744678502335396945004011186833712059103628844742578339378004116653745673726998712433365559837090150421515850727060897334035186069543959135098945876100051788841407109082050129133370675090879395664605013755029122921578840808044103756764522890514870221635129022757591220968111562829710166071620782875363143106108352746928099216099492478808307638833896021597320226406315214513221059748954222816063591675183144012759857838671037090161457803438404024812623804506255968707205355648526564286427807135887139190251756903016443220469113263570456153248678277899597046028191111305272293985084014636594173312038947694321207838993146701158120713110246046169221449004209750511749253262630962403414199148944670231986588583141034789363173032130161228859108411120252753037635127415205425829959735921434704812954672869559089085280268963679122812033073981339539680845027050550896661440468487145437686754823554684288874571202197977997451146831520326770371530813328549264471545020528834747078090621844472201216)]⟩

theorem shearLow5_ok : shearPlate.lowOk (35317972433 / 40000000) 871409880000000 ⟨7436023171671920, 3187875529128080, 7410497386071920, 19144339200000, 19144339200000, 13052566291672320, 0, 0, -769410752992095951⟩ shearLow5 4 = true := by decide +kernel

def shearVec5 : List ℕ := [
  10749217246655653416322968705970984911338326583998571685485438651857116680273281085700433686532454408794234287353471852596472471125119472577814466428669147027321637653132881787371572571968502285807656361180690392754432606354856193036026452103107170140589748753900723258100649622788424016808721081129678397259714392387782030724124788114572579109292391765352017238362899176612211513585866152274010860640739716040164909133444491492433250322838989203931688915552547413963740217839187335413313195657387502345088806927190209088153605080191390219063574044948301105803032181140438419981736744158075081572841626214663657811137277606261077649449403389330446264962167219020682269430862044084990269512832504031598065372200500768870436888651111129537402331141993149314811891667563909658604792151249218778130319716336413489257066336346450571323329310077385960654439394891374714463639576613996628095997068515302027058565902305062789752425950715569542147327808441065513379283212990072544538459698531687263418783980300301366242881131395953275117208610969383340314800820784619328690977894733471178001964875885233384632405749854988480307837742938137910380965544756424200288108901174444768310056797030011438389694796586751773081699398998589802847406688362412401202147938335958132849773,
  10591361539162992496147325944291878013147467291309963482938490561031505207947583843138830383230111846142975185996241314832730879044296728240267682777723479411995954252030343993549392383643175084993255591843644014852566939966502963656795854015930726923786739914036058446319309317840327368452161899433953826982224180895181113998498813937019854252334510824315083833674489846444831678943333545783727827331847492629947225696471865293273959056252218302564766810675303321309666398105960242286831595428202874528539628437801710168432528562019455064352214879054606868709657156658480614767370768660951102411763151611708470617678974171903352152512734786870399838078631428100947124733339380359885951670641826677274440354191283991436381554082266356767841531101718779127491138756687931889484851114177153495640718153226650728079087125230994168200903026688953792679510076010271245730468201237004410265775584396270142587617505806778393959710640494246863517744232528305671215169031155372076035595975226823878070660800500432611449021524329938717867176817348446902705746515740799104582982868341869724541224650906629727047827968509369402397603048026425952763383176368700128350686855221666375340193519229282500097889664996777065719899916878011538701194099697541606563282939181329087987712,
  10680656040020108739921662659730076630194309356195844683676136390393478306419274963904278145361082841252113205276864349593511400137852024895968769097094802290864350423866320376775882016898867727874360371581665357772066634811107123365198123078803254253097454179471771101989227520659771131583700441393293169035485817151344239754969934755272373129258294892092126328379176169669471758170946895940586128183666104604898542293130367391079543862485621234916117878854436317100092583952574820331684048722685537205984784046600095663778242274217406486555974011909039864331003929017393384089555630213367122292764941490560754043962423036588190735038416925584418002403614170047916733936221873018716257935620987669844830987797688232014483741477997787148361688356393201884987370508027313133427313275330059014631384486178950859709955613273038436749573877862902418205248393587777978402686658581870662380590948451067417373513004525266896160177970274910238958321857100001338250509526610421320158476234205979812828016261072197517739863021020135342311584031052198084906507685283626813566590513995302209573808674494441441785340530072117555514694066940162739841748565585689320527539898679048479227211880375548904829060824329623872481478753186520060246264601645477181190005200376127164260305,
  10591361539162999736704918569973847705408519624363183322017326146229837736060544360362648220295159707421601666420606492075928721758796352448061122480551859537244230240535394881723618905478697686494516173164347565893152367730158636053968320040705593614015189580697332721503122806007220315268851922001965544650820716902220937594477161177044781620463078247924196685871685361939297389344003265723031214686117327833475852601182844458803865636361329253422086831008834985326014520710218944347319376505946558913005532694485176442158202690849921695526306692902718237208319246085067291358063512830502994137697080277418208387869686049926236803282215674192629475055255942018481652257441647363695105180083293406777199436501110228156797567391739800518810356155688094192494056714324105969209774136010960362914841272535552963949922724078014028222476427501185385125663056525566915191575005853740350701381408126670995055221604342977825498885535563079788139022118256800451094328334651403803215115887197694053070778191936336474010651998350899159102748083245220391866520931026141590156574026381215589652259201042837711634393098137414178414302777810685134447434533080340964091398041886398258916194305445849685904757294659289879277402216428034965484567975131954514842870113951376499277824,
  10591361539163017108766608818708618220244106492388224693763715829557142846991649153311089300998064570523201945046864447341840232180090203740651483172446141844012716941143083135002268821515194760793877932888088978530096467277412727830146878733605561067523077524174969363209318606760686991282546533222810667200398002702810305447244965692922951696619435204789176589628131103840772953135903477615261332426701958385558033696286815727146669904097956903171469882713456104836449948442828390536147353890273560408280114095085119254709433377063459595635848353468493443294527655991690911741994194234035304349715018423412752395083113425827815090392794477065431461608706790325672948451956957823795941606687905338731946168601778702643934652824050685975643863545372650450818950247503577087959510850512762805960837136254001683298749763555035926167512877638051744655516811921606181328738312475123920320304497573045104631511400239471942702252265469429036503106014463836701188346648847984937676941806109146491288692569987905776671472194973156856230813470012154704840063824767050371200932524623014977017242977935234563119466178524497276324975404071372544457196914664781645070981759792333698088621241958039447111906110247333108763539561594949091471714939436341422307038304460747239849984]

theorem shearHigh5_ok : shearPlate.highOk (176589862167 / 200000000) 4357049400000000 ⟨37180115858359600, 15939377645640400, 37052486930359600, 95721696000000, 95721696000000, 65262831458361600, 0, 0, -3847053765004050249⟩ 384 42 12204721307310603975212737447064722648897255296000000000000000000000000000000000000000000000000000000000000 shearVec5 = true := by
  decide +kernel

theorem shear_brackets : shearPlate.Brackets 0 [((67768566613 / 200000000), (13553713323 / 40000000)), ((77853142917 / 200000000), (77853142919 / 200000000)), ((155364287677 / 200000000), (155364287679 / 200000000)), ((263771059 / 320000), (164856911877 / 200000000)), ((35317972433 / 40000000), (176589862167 / 200000000))] :=
  .cons (IntPlate.low shearLow1_ok) (IntPlate.high shearHigh1_ok rfl) (.cons (IntPlate.low shearLow2_ok) (IntPlate.high shearHigh2_ok rfl) (.cons (IntPlate.low shearLow3_ok) (IntPlate.high shearHigh3_ok rfl) (.cons (IntPlate.low shearLow4_ok) (IntPlate.high shearHigh4_ok rfl) (.cons (IntPlate.low shearLow5_ok) (IntPlate.high shearHigh5_ok rfl) (.nil _ _)))))

end Composipy
