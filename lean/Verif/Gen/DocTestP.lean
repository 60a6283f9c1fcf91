import Verif.Lemmas.DocPlates

/-!
Generated by tools/gen_cert.py; the certificates are checked here.
-/

set_option maxRecDepth 100000

namespace Composipy

def testPZero : Cert := ⟨322, 284, 28, 2 ^ 256, 2188983595904463773761930865078187877015947953971867604884724807739258000000000000000000, 0, [
  (0, 382787603772050499956760420738523670764597100063718275621336297348588216983552029681258964107079343837249478033256635842400368226775212337775231600825764521186542784828595063185931729587395711893170099937188261178080024671884619424960006487401131256531526293523903713389566032064007929984389377072048634312441041392570272816995736741424924568879579768902706530192262304102248259490714641735840036579254533485245952067643144092620269884008483965815979276319777625342331909655956124774215634677617356017758077530845488006161873317149901328293846567882834287418164493329698617237771292052402115326372025487779628864664161858944901070510854922023123287074197354298179933429144966161807037651842739746857475972828068467019393685347601563609265442662081631544772288396453880492752763271979375854370027764583935046137656088910643912974203607296448935),
  (1, 1425994946703502908187957185277803505825240537761592401643605147855684969512939563696306065123823820938354276244553312072159231553879426187929628792501108799824650529133510079927488154125942706663795187835351605631709190725850386265516305295382184000803255638196705704143516838789015747548600200832071283133480852069594982329740139623824225995241030189777562507213139176749617828021625584869980948341095944815475632957854042722874027818758563138236503446149164979001836041622180224403177807462200651168398889652755238113142098135961528741871900425276948052588980412646329732147902391165334451048584690563729840175829528538321600880065994120166675239819969940462172381773161199932843317544797418581387426770747085952970789183652368441725491485507651323138184610212767919474423256656770495053470413020099651028159896178777107266755112385),
  (2, 5312245140610273585423667674056453652028890467292042082710583313761968052062912150086112563028275299587675468044554114610549925095883854433632004233081299065890351418903135060993910409979308793931436493379442414759506250641682692861245219764792114499223439537721521050272572185058205379354209455967215013256225183865409278607890530019343741220388673952883342307854962262323565140447115841768611030069694042269962369909319547839293574894388139170767281987500716593788564906922526459429362244595157004802635189322825533818479831049061181669428020469349991884625439445101842589559520454854608533117895914968066372344987623264050083386983320564424653617926363232975288657081739808974990304996143528169597707587592293798888300914976613052606424528562893930028805625786886611214764324006512686176669301462746219786365141427345189474),
  (3, 19789655285366898720799638606818220213163236034259356866443840093023956015940428339265706252412033452047688767479934225270710606485172563916564003501390289760717568616953250247962439097387003876013444711936423237470933238572190302838553561884135434401122627920365039446475253198512663615324383437511380811245088219141249651491234190834104050771849877956820064439829298340989519433852716690937557524152412727759471479459090283154834546226410746397351240749604232636531119060058841576055869649756912036643908038088254394879353522822638921203944516429009356039601181522322608920708286225117937231434911046416765269493408383543331244367799322881925235688005062121956251879622273208535943356371210068441573887556712933307370694296590395421817946693374595787924258657287807688390291149127244680862323895925495690617695029239),
  (4, 73722210844482849243281925495036766727131739386392224082514047969221904933230684471375145958408837959347995994537823741401398951132493331717565668752008265855601313028310426503279950832527145281484144598008778830881913149998300905669307566747573891286263718904424605691713292891206829306946633150843459409643293243427759600770600851007193516089953027504757286756594845432749090469831931088186100903451901765625497484123150749627473838092281775020317241077820922612425458733686465826939767427789607596435791877828203214688937347211777573004425707308123028498406602769368404564499136891089768641346301744001372701316781229075134797923412540231945193558160000144172495789360771056741176941717061342207132678391979656427252583109109717975834834078584753046699603447204462566901101892294793810817124716578599999906),
  (5, 274636636840115671021051427330958719280107838609785676309891223792813364167625771728810466671022914198592290261901258458947386410580923153897992032587559021471445683495366672066151912631568108802602233730289261158115838281803954041262371714217863571965186740847023597701315927845265080433140073533518088644904245597972570362577590536352967903353098882379968787568043341609652485509915234628185118285904404437840906049003162791997297970375834796205333408155767061646589165281571843995242718040185438786823957183450432666326833471465946022867863318165584971193087080975118135725005541145162554949474967836322649796523064125306680156263206193436431374440243790897036710915602565646308252912262618054427775407904198858223641274397632104141603874028304854291319767620063287089767162219157457820268131283307),
  (6, 1023101198822690811086637628566319939792557949609256074986946671429326251773632212463060269769366510952235349498321333747161129156429034299768477799697067668555102063325668394812017353741705822954335189351026941679849618233010001634293689259208230569828997332032857826729550688882414551202729618301682504433781823508339264849489892037037640449975054272934678150594402038497977339138989978171735156229191619993268542436469519010493852521669679581919132637443826213440302000352260475020837496004276711180415123693291783442242436403635308501095724928501446055503429909141226647392208675424273216282028397475655131700898703007734193505839354965560673621364351021503431856053062886774095988871999190674282997740031588779463792266639908561971534396312236329147146567404087149217395645687784652313136),
  (7, 3811348970318923931891611324870288147749595156346470396917114672919088049879790143903569392000759061247987112024133405637596283690739550813170067219797773914616935191026584784731333530477083559909221490290116301476395198080725973972282146137983465827364464596036291967069918993422443237910902568331668169922313926772547009771652117509535105712618880990649311608379338026024391214777184260415322576436385444615735821382106632984219428517950149388396777162324074848826183452252032304409115653921141161747325121929435766572410639233930854948006285529346733053977269675202144628155522139023091034091594037367257439053871168462696607542659068189939381251449314045162428096737647430243840866203516440054800821544425243787266280248742191176742063856505949656064332789715266812650492533312574),
  (8, 14198381343181892975761038530134738042017799453237915027577857199754893965571336984275167405608143885612439781517287364742145999113990183223672461583457044939014819230983349624020358661104304939170261808820502092973870031836353145436503537513254083049910011127726331230513449733787936113442862660928324497946776176886808163567081531545278078737180242153312301169705203694262846757877027231058607014385612533176624235520982665174924733156338216422416728248043767642463062966380716685084229936088426655599645023693863677239858922369960228140650935044917726229644614869399566690085429420936149858340310489041087789772914419589739185112443209105928948407300162583743202765268739752016645212212071446690167176309224059941629195895939501600105270123409335263299665517213520778183718),
  (9, 52893092271618146359030300863589115597373990167818646980739597975294642022145304770302651098400890401052086731483367699169166382826828149049253991184596139710451734181431493252591634769381228607782206717209898281745128452168230509148923819934033166803084355323487264031594431898697972720276052731753604478935808602298826588567650063132040501134209164420573692981481761940956422883197166484377093825545265522261412208154279592570565079873828030634858190741772723337429032027292572849670124063442997400544235145851302967690390950709231995715587242926117970092179031888913997212103841731847166314685791945663237188664382522873898958210683483689348749018647436201428022319903275375526844769961692978036298476611776133352469751871088108864121360802009416313565124997539737),
  (10, 197042123495109924521410095928568823625795506566087331551088385191912360571866127737993937352303007248983110232216744494323307211797044236396454241814449949974014364858834047811447213476081299065732235898114361918513210312158728052485450431458775575470493567449924588321128606418885188997820216163074986930697443344812194215385802325353177249195050178722860465230602290433653107991516598045163131609231469702594397059053433809504838089087603352792409511489231456086460539810027228345378387691443526255861450211854401142081396435558127699060028497865307722206638098836307416644323828786036518058744227239108446198368309540744376310029611175238058314821502308191463949761868705008584913901053521166138158427594590709630866808723245093826849688373582544819333101),
  (11, 734039111044667380010374247761699645317329118274477614280165676742465647205211698032893007070954916063633226723286302739096087261278347061561250097358412854276651013116665362609353711739485334849850222088822580570404269964094191985150614498029558269197097299433963702325256937812586087725386828791629474351918113771126397756434240659151886586826481590877698604876556585039326534945716149022881312206721701579615484625697439259902148822533804448108591472945540688069061937009927312975410536093152581155630224380296626273738777636771793333639367232454170692422994752102116791377273019181832638582194104968475875270475570425712254878423691014894513329833937495226634364788043631949560491228722403557517308859755598528293401823930285814492618483038165626),
  (12, 2734508779066307023206257252997531165619675510654142552167794394278770861049040027085293110724370613931243221175992126535982218613022368630622513954931545459764640827166532585804737030489315594918467931780303197243825606868021905366892421610763513554621850324548645698745760835009016423394481945006659158885173923414671412693091633391201073627272552217821917288951364569317855476045726442668817248621109534403903033840743174487353956557405638730129232551639709608433859326658508406680358129287914397096396788333018130855146285888432640257001182681279633847093878681068063289324747640824091693052129202870190448409929827128787318362273873233829301803402433417588349774091373078934378462647506440284813788522728903010458284065701412749097379738),
  (13, 10186839025714647111319963831445318332387788260929817528157660343791435886357128721048284734503815375012320358961791271477871457535856845343941874634219502880292537909621494210529092812870873491907372816578683246835416580990038459624694368283314680884114840345638415585256222020868273166546530816728842105288706434572754102547063057836894220215347117791041481510023466139473592155279341279330471113995674875646213147734695474222274197800875798266551040380778998696971706331741913275001385753681483851188277345609034198992908504023719216442451714082030399201774574924860928472088176722842305055751019558508405646011997567516733893376439136360459601082808813339265462710954844223201575608149213371150192085660832523325531636287587344115),
  (14, 37948932594487991598695381847937845931901739019639110297551975934920593672831090990633833164363411720888019945330140260897097950934830476879857013502044613958494878968676530609015721130635118081820654930839997704459043521396959050091707588297555896953176112270498333816439740437523548180410753252837218736442574987459011757921662397075050399509640211813790143676179595014100862074676544530851409737701126193988173549624640850473596833852340186060461745269645359574270319660357663001250578909252641970199063255266370248033556144026518520730376154068950396289918787265260626496740205266839316355920248319761084311019610147457679151042037872686570496161361858056194281378183789358820047395806588627923836750523788589684661144119),
  (15, 141370790431231229002384028762347422286502044721093439674198537822516984018799256498492632673544480356901958381124363321427620764578992414771977862350808881068583126994507501307933483759444646842109616588205090554278506045777198113842709318911864969704956234509119144888370262226177558974961762327094445885876472992669834784871572245191970465744482879058730986196514100448481918297103559121149744049268757714657538707911824767925392626242864360736848766346170665986803616191408272556005540732024646192717190670529043411999077563264688802712992032876773243804830553578405401168266272854852641237096489193992677337804432253470076652518071320656491237626771064390447518064428318081531540411003386103747641045288406092344),
  (16, 526647234079358089724123585083884828859947788421412705161417044038016289542612643906819197064431311029575610090510410522772449123036088104441679501350257102655556526014609267219653292594271327712050142095256934144640363923375301487157901074408981836233125010539290103645511948414808358903831848230564765207009289386383573654560641367703566200065557808543805020119869527422641192855625869516723292036868037523463451262327628166115035341480761337225611952954133502330991900537196939994176998859564869401319529879017533891841257899919717201943809141696367788778063412276151675366370616622606186025433047375963085915630041697108969401643445058676989991314601676302443772302661753107250671783758624242110142877299),
  (17, 1961913831827633417115075830682683098539515541573661212479386642716885691667395248662006844075140770634917952457481661896304969202861518056845961143636171157120006255859916162564058946796772359728999965247723959925176068854985019144259024688634953782830853054446317641606598900313706542938321263456958402719383274713097414577605729429809623216069164041772245200983574319840943630061391888394633817280928230002710194439542395504258737836053898856752890600323462385112882543763950099016160966160802778000476278651877391232617811393592698242577428542955948443380886847618189919460556489864171672360755147663947263922648496929775599389616844921924708193219402095163421071206461029811553715923239760217537),
  (18, 7308698564125721965413823093036871770544035515091051207778553078759035809589159669958080515545385966580055476939237348349038396786382489118151221959427636702060722767784879217162947903561489134017377962349817007501334208454880934746038260641079223837073344940119674956823136286116043265679185328844779739973631779525791907972118740639871445342653236416230707125770637035205803053048567211970261814174021702171851141222431882995489949072202280102392344909864785419039765857229592051279002439452955937026958048738573764873403800256226382989523219776458146978554976853211941865649708404112538084983590913866995320125553813154925688627879159258933363338278436903546019144172398096578302947203165),
  (19, 27227023855320073535344835717368393281638754587959688930878613437559589034278540573858024610375560695603696543496986286152297246405417059057024203089727598063873956977519688074152722595488612107997305550984356580307089568879011775352203326825347631562774423286764602947321296804085535055693929377365036830207823885700821533695305662750718918235585840513060355333909055905864389305826358425631165079008839148776582760118879760787903249246253213512893151657011092289046662009193620636441212023229297821319393227223855154603489075985088012409391121372202994737832787479676679194271590483933533593416968045995177024513064121924103911818564908776893671070104974248944514098833320968302444),
  (20, 101428567824214970824661983986826215988541970357148680578465064754931587853575276486046703943519147841646136878047087364466105574389610659543515008277176313340194363063274652042063782347323790594925379570515292064499443653520240542859596486484064279357993689502643804800962272301634904204658900862056899183272659352797350040661770987915886673009930041832331550209713766746096651077530015394115325274459438865567678362314138983238181227742268581652299367843466978410890953297250747518807115320908613592838605847465188140069642555759459483969968508410622210083680812157615465266155636359391414055681306244207470188136262414929629188366345757334247003172310937427897381570065087),
  (21, 377850859702434282096706271122493654446832725246059449681882056426002039959934638761157929686900779014997694187041697518773770236930290831415038586695404027924665671077648744143783235353692585956027282664609298350287391444743575687928484702423454371683276033038809168342360378435384125279854613773736727175387216183533333395432128366669119959875312653863007123760384140498361277450431009413898841185148708041901004743240886458096082489893201495384477764327998209679422415987156382915026264663766291344359137266244381604650906606754905011776016464913884192889161809622436102025564110934133453791542539460812515207955816235732715054221828945868811809304014412352883513),
  (22, 1407604141914972223701723929950943792040767987244052625007488043703146427720541651402257120933014076258978598516589766438207664478310535965170855025557443603592610623976769835292485488033639587298137257488851615601358530837087242632837909096566790236842915538843010248029084423316210975050384602597865191010338128301883059670453457828530222195955620779693618966835527827237928627594591369630397155727034904941349161146887768227689260935953080743824056198732042893145826513761043438181794903260439387017229299060959295896122551779120484057956648980932529158491606876902934271503542850708229001152855481264232145426879382539291741795022160071025233619693342027),
  (23, 5243734053950653313479289151545404613169908476039963308749675913539329274447789979734484556812845454584727430777958655499695481651688128580044414943298114849599490404042489213095923841124920499690388357225252746050650368769046823057673532875503563273112906287770756512988673237399052735605778554819022085561421718229029179512662905013979934991734476180232655434198586920473286802149327872406809223150362408879248587096554628556986209925736795351618286069562453716581421361303513223225410091654687621127284220424810199405964554957368300808772780289608204383336897929838330893131027717070161014417145706707170696359544626199090528499154245341506233808),
  (24, 19534431598896731858995888946747051973528819069415194201281949555647854784309081657731848049211671406718818212963486669583974337770373108163641448852785359507797250166693662155776932243723126127162532349024909533748963358882989075249707448763786119495007791697124974850522999604787873981914589385764274302683259353166612975072218330420472062255855479925760688593588337355899973341817332395128636364354085374138269084648555276528161487609952980633608711923869218323705544352055744702968606270204814297520456235188282162091582057117223087226443354246202904359623433235825357397318857006459295880795096020875516257920965670379062834369399319547),
  (25, 72771428521337851356699649046164199611279439439681150769002547694920952559668874955668479387505618507857688564671153834402465588489074662937378320294564066483815201247832410617831842019122563776234285343531182161528480644833255839533014032109775094296812235180754120836120097356989510290011505894010841350986452435689315547315724796905051746762497077452260240268640636568220580741983141044463720944031542962603539198258139886755262637403433332434665260549438636770752867537582243291137565686815515891048561046531715644817015791429723071679250122740503759989149263456983824645868697616503107430734906287402218475896337850446545762651),
  (26, 271094696675754529821498874746874718410072622596029753867546274121556254326063673778133390052264997764891715961214728036532050328288505460833677352572098622038272027849526742912202484976956858397402932284516029661627414244537263510871730864456948244187281411814518723026365404415841529098822721413026425917478890620877384791200119802586473785166682626295019391845960585734450396194945867995318399427844824332972220234986328112731941454172552347199378404492194387408503673631931389121172302772042295083011127635898050995893901943271896810064397120287517601498259282185488990983409302986358035396513208305749389357306693619063),
  (27, 1009906443490663654437284450035075539388033086791745401425459512030915373288332200713952593700084826964481606935019523041442224116208052116757919462666282884919166668688978042126456219617116668810706333385840168824894034283374486531584452332768396452766960158253158342191452940529693624305816809991584528347352884954088405219109162753065541338467176061222886185615816376699812508142797403357188267181302194159534265639115028794685548962502518568664400624216231383422724127176136380940445898978437383543560496197443289613815501241736701918113185679701290808852799174797769651497583304337780958026057031010512281098718),
  (28, 3762194676289944553514139540624154878363136525421386217420769900198710610301540049589993781224209170656210209932250987892755210832536414700589774037399451750960821914259262539917440040473329532186338057316244277450792619151527011884691016125561283725377023809601216102537279382268104019269435439320521213154335132595868008385307098484279103159128298190357568645919813525847015448082131231947045124366188530602816455094413645765768460318380799603634937367800459406188856132049007209978571912579419163471583748071738607414934727482344262453620850186885036241057973182656867846902073385858365040145744119251101),
  (29, 14015267328507991707005126553118805879217149784495630180168039724971021005144491976462281425387446473003216869876723691421580354990573282169512562593070610429945669748854870125343799741839354977705843960181788643638762157974865331816267282238458408882383350513140031626618442449761460742238251982683102889654534784326473171737834959067569568208659013267041379127842870956326775493253125764577827759660948097147341398140870797425142768529764293084921381439932525592002836160468825748681809608992794746542539107756389538071081072314678524596158711433195604160350657269200506677842250289808588751124714),
  (30, 52210939409241049390305305097694716897670737596212439910203366447132159043641731055312907045287812028092208764987899703612850438768317111467989394787962028495764992195572220255970208875236492520965054482898818864072718314732854559333128043502052948347155486646344766702832023936708028795722272994276656642306924629966010977109779214984748963825191940267277492485023694598163177070510452884988457986517863730811613178671634889607217797943482952777027089639709642165005827264673780294967221520054768831085251321808158869856374709361843197659130979036699320903752613169568244769246296833760728),
  (31, 194500906054828499966507051504011142617727583632664531134826564964399334205842506346527140756278529867873373497232421128499695803107012478515466283216931032001096726192430482268222454470531987104434722970794211566719108502316678163905173703058065434750246771597963941677412741303178475486367830719574738586933862284969381954393850859603568955528518630610922966805379069910874600928467645691266427409547127972771343749169277878832895575786560154756296695176267427712315232436038359660200146678998303865865669194800435521627584767332404302969699333516126520299110498680288882027414263),
  (32, 724572338368104770654838724076789403772829412045570206399360913650689028970310488144036906794751174255733838294567246468736588221442000860405960244003426402811321341218167849884265864158168387057016502957024468357559697711157344894741359096944373262839571210832976241046745682514763166315527027808686791364422603961459058551680147617580282496599963984355887675304823175220472026819153688310428859094551992515008411596369051720867229928718450016305837350734569435023744129488699812938436128974171765187918787220657186302272462468415964285651465411387816551210433185512406647),
  (33, 2699242302656564007158721700596769913184752360156067484614852494190219897666240066826481024901386999546490007246163660543920800914771858082733900263918289552671169270642727054224408656947942029897185053516270474931447571933015556773442210253982984764602452781098749962921566304600606095734403977118779765385048522838839932295991039062034635460592088571158749420355627728219417361328110052641773394261009531304263492717635279353503709704988299619155038401414357813341269619767663832732419923167392426416698238383685545517132144397345990180382492033541770029713242431),
  (34, 10055461163284495499576336520153171990755022913798941242005126529150530314692259083786908629914324728945232954793288039207163456509902544627837465196543520512696986163566734843792053524210833124433402171419078390792938010793462715067304888490677698607050817043112082202109529956988535614179778014528635106778265288663758379325604411141656781350386171686895803375814882515381206984330773716287804919734309129842983778412602528370468243487191262384028171364675185505197676441894072409792005565034719072768982778508845132112829639819047781483612863179290132935),
  (35, 37459511918144283814640106708381965721976097352053751207907224182600268403784405752222644649126845333521190862332612422135336162559325041725626085685728194239351846887047346099436482504795615093534447891339205009936243242266715440227501569181242751740274425124331653226510748564099053614412913413139616413623669056463168251313190043499234548666101726251343614211800876000518274977145221296347390279143199064864043205240911263048938258292780133013719189954205272949183655949574594297574826399482561472386867917306979353126398339796189846157326766569),
  (36, 139547556333781345988214413480393460847348337441883054405105204070360468342097125024432855282451381286685134702669875406232983479497302479019858262262225874659984733488587089253352889808996077975389542355217228727824461300507162684007530526825448105660126234298263924029619782316574860207904544658552909662631870498313204682230814849516835931339482336631584431357905933065600319127812228982382223244111149514465889563720990138385323591492089544148414060176593964821228582358219642541615993670496158387512567061154733599035824038831088566438),
  (37, 519855157784303076521360924394404369769052928097110444326345637702794627629582304598513451525760372305978591377548409276578513829027498062774010979615993330851140370549958531757268644157785485444916161316096303888687323895249052276360304713351056721538582221376553364539357263705530141995997743858493659201113496178327774585859829787327017580363396321811519160892729546442915695469533999054579461255874732341931515308108687572320451722081507011101175461311111352921858744397869530584317139745671692881876223483263670950671315509860),
  (38, 1936611375899251835500303374210016316805232048396432564878261229778806223085456731164878053686620191879490730827854608284601993221892036731444340123295759152066485474072242273976167478578754563133793886284076561197394268522902682157322788951483132036521768772591343788503182172717079324772295691552192811814927485301449441565891278327778925284785202279710697070462662922917952059349158226688536139816143081194867482885442638452769313066259087349249050244499863353550917304919197033915173192477327147173191537340908785148878),
  (39, 7214439570528461916373310142047764050980031670616688448482234886954747971465649944412999055112228512315045039459521354305006538413062828523830846411346491992721279986471843263324914513466718410530097518863921558687822839612148113998554406990957967165016428070273681466760998009342747537571156873718098192094817269782825314096213638859303286705766053336694090181601983609269369625977989261726567431057057330142990134072653681428965879345758857983810843508571480987102254274169520996018063488062433584843286905125306),
  (40, 26875881740929417000611536733984068225994824136110724689372758891264900458848662467349317130119459749441761670483355798963481703449274705811704868120500788111537698485554162112747706620346680162512140005329310050406680110792651199467079142757115175936658955889358728859090321122886329897483154373212666941119292140438611831907911605738983612993884052964647966329425912672828897584617231764391131270507187639896975462254397274532655843935897282392324669737875336196737333243646879508001797103350004025563252),
  (41, 100120461512094054373396697394490496166031152517015951459753360194209592263581836474498052634743823667771226430249794568730450061892251319481823102088648036983959375182892248379855621003150360100441161696917200164329503295536605168235123371914865351754385771761621004345205677517905245525776819183693770383743130440401260600970374332798723554058867450653388374958808714597001133566536159541438177227189023749021655401649563555183168209522204714114168807547115921214840711980267583903629869302267858),
  (42, 372977783948533439537125443646648884438094319839089928044950068720465869693390415886409776787250577165824273341334590944388695291773421017385360235098430611288771083893632537525636852718837180638461305352658596010295824026408837471875854655513813558460326393760734287532322745699429274950589139097895846890848886308429268152931403726791460574167742052665156590899103258251174938525459839116555924450091053803420530560588017694838088748821083037120835792488795873940495387217973839890036714),
  (43, 1389450520085295437042137397999498562656694352027363807130418973864860347261244117790497007918546263746262614955509420277136174186220098353235738791917665641249220981405125151284876935951493108783960673458672076862309796813144912637342228548720075536236861631126655404568368770420959281506652849429650850902187305265668689094570191088274178286257737995111600226128438538698771561843769543861335295637320249579282561010675018659557955968983940672631941050819161935000057810334261366),
  (44, 5176106542666611958452080927787343273523056328398599502185057751330958110322222552413109719449826567419851627035101578671992473999768865660603493852136646333810114186837783664383470010538954321377649723643672014012947204558704502265043320576882548751408822424208315012060798339393525408095220933388293916208400815811729794917928593972493151275754915833173964110028594487079580381744398619638763329565141314417010174484147219398997830213939990725438468490163069079145252660),
  (45, 19282499487201168978408280491036710416984022887045888238344556656967692488142186971057615129090199498161120813470712224664110331191763676986305359070695754207030192893950633228843258595307767018092823096592150574032472266303522081855306841150050839692003176416505167070799115196860927007872537453197934605994589252215785227495565755740237051947399387037384363207935200489731029181912771124906032922212880434838108408922701117368196645322641507149593965632451925400),
  (46, 71832908269767347642810197513687276903480376627467156344445633355407761365704934936231431100853530683223608186361237073914259050092923779314387373746794204415902423146198442211004475826317507678909054864096659754295186395561485969807448475514679269296021624314437102473089822167716779376254632311602814217488164462331972516531830675823606943177188623813291717744032644768956032378491139858582416250642516919873814962210305246557058830355977444776111985092),
  (47, 267598436287668897371032079732743192104549618912738399000635867399751251063141729445127513635357956153244208854454029697283646852520142206770213959696472668370841762832068211913712503747451189209445239107463026055257943880550608157522668422196986628347287280907776894750155775308979906236052733062053662071547672188368359000909945925389435980654107900634062921815201718674074073532025381377879781195163556422684280728971406466035174937288989616323),
  (48, 996881858586031561236948071914699644239804219129452105613931519537237476792714481968907690179938338528998251305171598686708205317647422714500324185883055866179930360154993477657336583192061513563280393101384344365795684706575509039069244183493987589591196523864442352799867149034839653369104336606012520432619191781990146792139655199269475239234066951595582127551110979918391228482489062978895893748403490420168822044725910886647793860833),
  (49, 3713674316503225122529819875637813077270255309080526626161975858871778386804142899695441913618765895771325079290539125968857633560865885756343024938950271364013540845281421688137048397068697131667409737260694806016639513210257203144890562991185567593172872003166753644609127932674897480391633779215114855042035203886564979125818442379656366700841432869169872902835077009822578643134853245749683258077800810773166972094827113949714),
  (50, 13834514902916644225008114709100920994841513444038207181401460837095150327163687033874034107998869863300030220005697138216956497458334812055288039669593514555208980835965635209627796562483496448257784067862818539014324950287644703329299979111483614256657423238084272610002446263463009400570394565193635181890174277777790809391269083006395034687437348762632381421932929676018664129855128157698994836207480675926728312587063),
  (51, 51537584151762143615663478929925415645694410219930884172772842783835345485506329416172362903510349765002538067615342789648419197802628237180387312299626938122199664364169342170154963272197001707225107878556755807924953268731000033069621233384689114562022671272398254305026846527086671088235562334662755687117777280845193403730897735077810193361231291614484392624751879022478140994333857316350323483473605525570036),
  (52, 191992462246724008082089867181798128953927793428044334697622220885513899469981903970019874471763201758796713249224171967331258430449807187597153243554514479085418869834845511536227114735885272180138648881132907330368551677289272386702757821763897137791173111632060653048031042247379426901240440541038167747292727357366240629165077983595428077233796369660740662644622178875656183730934427711377102483700929),
  (53, 715227656985536247797645133665942136026649897650049384495440141842952485630628685007644523533943548401938596744365221958859392361997244108519355259459337292870191393675328000432084826113886104553430422774450336258721169641309778645295825757126245438958252416770321346639291996090209418496490513120662225112473171799101918626846638265438459784739701575251839984543458409956415308043000896259201088),
  (54, 2664430651759863822898436835653864353994465984185093527067469149679968257487160712066959656177218273335334152512470296053194518388911975435870429275402344505763143171796738124429796688613400506353008476262354408347509338413797043242293360220174683161382520052453478562223351465193891299548488365233171815388438056993019473788305945259310923435399749974855231584017660987419173797247939453),
  (55, 9925777657925575311848658456108958848966698910321190530377687940027199794297890701698670741836612629703669828024046822489820195187679241686348042602213122750292378852681296067424908608335433565185482413251752570158779910608476134824439343696043746325253825684083939808675127971555141061478929168249528317423484658843147291362169596209034179007305609893691265730849625509105469623),
  (56, 36976403213760164796742269607012525401837283402484226687095274913425394889275210893510757673407849131242297614078570558463233195569154058137654751092251240626438962705080882696640813562296103899057555630007202322559164164206306182964743737281670765353481386010520618790202791685031185984112043442455032958976333251491662820435582071318123197682319489165667573363719651843),
  (57, 137747836164236682642527891224804144706281176957625615505623323148652197726998315380445906026485459856083494199794937159328567534932082585524717895316310133704152044506627148611379872747164964149022810087514383245910889032897016612040173604595735719909355170442716731301661978215911998439356559433775508905701290507221546447446958386071844433459783720763091439612),
  (58, 513150677698006715875240168840556655042323681331560500955530522518663663984660151049954541689204350267325242794988228046021662158836898339933149129164070695930274907855553153894300720742099050642648877583433576847473772225982023877056694171148639346062417305242477791852548109827539770684072619193686631672417239278064534686949416872264102361491439810808),
  (59, 1912922091807550751133901304842222841922008590149841367233992961127360787354711782594081494070216317915809950519740400289299496988692731350724148639960338652013457628579529625661789717775889345936216167102091955257388435981189226532411499730212618278057565187627399764347947820391600550467233515919121143686543092075901538036370060773926976392393),
  (60, 7121396218511712128125834954877108363816308584153558470701215242368515238278341618827561562992850393319728210264179393696947941363357632860190464956274115498471915744343122507869711462027918160958383851339111437189765762501754080271291332983851645233588383358919302366376642374152882215079138359266738006569072097302033445479365179508082),
  (61, 26529268244325041511905869521633289799715761490425145626907525717268988494655454275756430453187149625770875113521393144360609772458861867045461826109982706343807202557936592924012419866987539554551860447915002447671076145876072791264812177599524389592770421765831482143403416382704046015019192096000378210593486829456755949287174),
  (62, 98829224879542710219158011170288941973754182233439987782603032701466479468597776415966508226017905199298507661319373942073465130244242636230732894915684443739411963686114361504406731091396351817242900919659533293286045347213657114170175874990800434043773129683620204993671920469124590773252055318151057765169231233532155),
  (63, 368167555391333289554627930876975834950707602747987446984774319416603861335562521426103681259407362589744638176156124845822369802861840172922238762757138192522983616789719449147531193943072460401029912730577157164680009712713366687338960433935482721841645824686249236614969632515308292245678888345876607205108120),
  (64, 1371531012089070997438915575370869440625802344607384076866269518653526760344922702815431264102624006919334636949158233459881424098363498750087682993906933983629997175378872106210047314956228252217555105794139454040895188963464446325190920217000805977292600088603940682785798381693576650772737031833520135),
  (65, 5109351211442697657319612252398261750391187983498761783225328050081120082380819666734944944655003614022890629137542207908704271464183120399371207942261840793040149633809763793972846980370637391878149875247887563281393789368814818892784684034882873948980332710522410607318110453392685684103912140),
  (66, 19033815364918248210149388815521274574244947690783541782441213820714820209521044702781460392802608044356231318041217049121955536115628413378951331886589353000026882159358471067752622737035767691915193200756137496147659893241968914385518385690580701821728904303234554355751726124314655099),
  (67, 70906491948002117909279626517419543321453306505929011719410633036170430114645859267556295927562481613102663294185143164419984825945388047462593974871706589575650357609069710073861705923972786855679849934677542785984771788851274279689991235996160361350156148746176778027783988608),
  (68, 264147823510146986987790469698936486599560115207778248010466496523794462206239534300829134043587164908649511661123384506824163730213248470512093554865136121860067260206849820692817683830868731109070531631205662385063732001587690439941405315169347473775291946565729421481),
  (69, 984025249450868455149306244462214286001068428405820612885482268498641949737739873945998731567289004029166510952347714635779836436981608607941818346359706309150946391368560587754989582347653177665427141817262849982432772036699775535339813903679002808856039165689),
  (70, 3665782282566471238722602521955758446912295074592937961704439625506477834502705775894321881004951987131034431390343734921393368743452240708454319670158593034447288384991587290643323409575039405086288126608820240162864662360486753078044843673816836527637),
  (71, 13656117010950774760624055729265729998306117330445672084801481330687016472786067351642456960520907961747509794935071080924695387139076201698642460832912137448992332167925479605414871206239635269779003074836748317735190441143187066692880559948861),
  (72, 50872913038028342301595384336772384138563735684983359786960450314202100880183727081068341844956678085015218418905975753648181306685521269299835792356261852633008396387502145137381014182776251073525054127455353428549946525204089541006320),
  (73, 189519235769222964833226519186575368766003380075815095421665695288987063249152124365325591207419032989429755670238916815865605507565711619731183440714269775302202274296387657707219410085692795829236360120084039783310387762230584),
  (74, 706003492307283841194216373337430804343169696323212927687261503097450868309376579110773310441995905939834511551537148067687712702048406288484446677916746596572435404426273219145076320810341797604811696867376991745927509),
  (75, 2630225195130692269571410461041054074110092499312759304477399391237388802869569727519057622792490271407754290000571374290910076078014420550355929658441128660070839229724693568948286715690182580854015940428617532),
  (76, 9797766657876103010742509179474823178445272599121084364989336973164782911172462798468881813915994768391091042161401375218166735969826398107710997597589118550339069136937913204185329976926794277968687208),
  (77, 36552722770538806519200818367951280343354980661315504596498912133559442862875268423930732268953447290336539569070990129565299382282926009112125080456009004567536541399017146570900314230700714566),
  (78, 135971326666229252687500913460688840071419203661434593707505265243121231083077896618159585622069752082136943290717398962381362937013756423575377892001683451339604586629361079525432854699),
  (79, 505174886772509135148426515066782945852177337405554572298534470493202614051887829818772685902592445918293244100766230057621337002994348744278320551803091663472831990119145262732),
  (80, 1886981219440323453907397068130389951801057485858020246629705340163330415103185909842195156001458042582117583828536853952206841435792277873675848352210898318591099646731),
  (81, 7029552830160868723537390754910417208208928379119553148028690124324147950577023267187536370480577229531608683751139798930526608301969238637999315326426230928301),
  (82, 26187124570505208731400603968871630995497956531391923134423338306150668765207630761538762275163916823662982491671534953202675034159922260789839941880097),
  (83, 97554642560794107193894747007324626609452201909160095130571733971665985197404592223666104047167354551611916954813587421822207637773918103128806),
  (84, 363419349963219833576280175721686416727731377578534118169016078117626789424213768667576509330325484122009023649312372997647524263699690),
  (85, 1353842629125903566043897757049268323117024977964765124680623209400040270020397264859001070563551759295782134367331520026361224),
  (86, 5043469738305209658531868500424119462707120004733489082971607608198219485069698088735090228772264318370004766238277045),
  (87, 18788340732182169881627730434461369060035586933277539960565206082218136002710989008216268575161728375016034627),
  (88, 69991581759212166962783513244287825293593796503162960565996790193704083147086859001494603255415130628),
  (89, 260740605942149450370330737606549634926951857469085870162299837910045647923574932455016599215),
  (90, 971334333939277264531287915533731644850338958613059798375657042873838547817517180597),
  (91, 3618501696788292342805977978274798186346877907335048720898549782611301098299),
  (92, 13479973383792470697476404971211398862550105057895433993226543296278),
  (93, 50216703697562005157263762942018078245822021953311404711098),
  (94, 187072210276021736785820210666478351363667513461824),
  (95, 697407903602301888309922945649465392849458),
  (96, 2596148438891424380617443540435100),
  (97, 9631130433103894959129376),
  (98, 36028797153677103),
  (99, 134572555)], [
  ]⟩

theorem testPZero_ok : testPPlate.lowOk 0 10892623500000 ⟨92950289645899, 39848444114101, 92631217325899, 239304240000, 239304240000, 163157078645904, 0, 0, 0⟩ testPZero 0 = true := by decide +kernel

def testPLow1 : Cert := ⟨350, 275, 62, 2 ^ 214, 5386734056318954043845398683292100974199200857147668030272574205617422000000000000000, 0, [
  (0, 1216026728785742948939990521191012006347288167920996128195413232334060345881978605018150733210342240080337049756856283325881582554224827560160147332126907454919873363078706128117967866461330773318987555278310023702290898092144500234717202697400018369483488959295833112709104986658273118999324322934017976948421129568423112093246520267776060857509252680795066667422364763772773419172967009992008651184448097844050358293903604327190556508325905522058925603849906053416027205315178051028494837476747976007477387448939036263463670684470123106696736536646347305489747597727270659535988939127481233276781119040867534411543425342846566126889062503456956459881271769406399553828306621572334926775127942643143965984210851669504513951757904256652013058317258475550524446212668350380420776952642999047800016135956461476137120132469281517758767281459396591761552187836884287933756289685226940246522449061234887478516739611723778559050027778679393688031961269425569906286108186083335919307384699197188764477527725476764107381050730497450103554091862831933478574290919609012644408559040894963461333913110894488702154521621631746212876877237715431420903059584663412572435659780404878785163744796168745024664430068638413397465817527787430030810554872795186880421096036539891501421744873493325343588646826425168557849754615774598367829786043221330942282414459432727224913384574526587446600104170835295272407275958387847233815837195959866654021876565952229291627839616489512069815916592635332915344393750415099770710828732203710396862629274752906761816344637154390840570279290113008444994375330828934100368487807469691776842752181680577327671220871792222673757727478932977061420338548822732105239028411646971200671347299298253680242959165452461018049586956781657613241101194110056217136024206631593609965540365493488086995309252840717046296442573912947918189900831400259624053516898917),
  (1, 263683764229988759314295852698295000149047684675573451116477759970375861825557735387945485028443580472691054639873256922973084429403392632291762613760696470919638875373936840677631048171473147191465269052758017824169328836602713960288271601268176376955840793682708653385370784446774385293785150520882798431957682921539695000875893779529529773867206833364699176082465042272702311861957740509897154557869285074289172167209004300213923318528231529746666148963416199986902120673104513133418082959984556393956960063121080993663275987283765780304264256657441652407599782601768646340008222493291974221139139401085078783155746924911454655882841389676386776375684099323034906033442260339920009636444539159695364367931620415198754934074790706350265200467208064961155320215497436263814312600651625098494012105894578344809249028641062357005424353019894843981448723800733902377389116876468014137694781748771460332215602947976019129309820784352064975566644444358428997183118377360280398993272584548496153019082638943390126235348698288412511166928974384051112723484920246080807893867942663962814125700179319339423966852549651469917256140471568221046060846153059318546055957223945899646229449933183760499780579210054189512966272842091882845105789714187430418604591750113480515969077100708795959504575168559352458697602435782659844664522165434125558074323861128636346327448423352671464407224377099673027290341448707358909953642036361644233377986195924878084767380027778530926859787575746472336722990882212028511868635551786139443223075735428500356020015730239077916319005570452860119382267376340656199856271463257792226687799073796575893812629396203033853535644560788416688118901510209471522729916783801071808298758461994823610023485665759374309194723276000305319631400865968790469507174350482056145589832126492688900658031570954433190889120292724467741066831199999),
  (2, 57177302005461871418716023030155140257203423185481327618781069437552439530319242858522724209511130867369911987743634487582391113747098290367639179127337626017387042654485418710311184760941552974058334736112766087033831173816369716891710459252200737062820571200474729890403318217680458532624792861528683456036655250667422918580768967591885771546266719915701423732319683772095364607936018118550552248772301222253874515707297977723930279347061057650641979816877485892447239597564914005216747779223876816243201612191202969049485261353937203423672244879509332483639268065186282482372685185553236895707558385935836769520487216684795288306120414346847413416398243987542542889953740154764785332892417427166722579977936258084994460402755168559923914507295732975753962497992562119485018710300633881118575791984559522958661408786180088652350072709735476261682754406971974571872733381096951357376462909641004605033060236084540693986069493683560928198625668385748419051581924723454509213761989089907116234979181537233278446848422555658587864041836768386292057852636300052108677761706348554139402265477366226604689333026596300137643971298789509081841013039758219240164312727533474321412037889620547654736904720021115222551999521743622309887695875925049831562609292023054381913205161807494488110589075558446762199345823094645062400571569396276980999547210882940908491025414871536686417337920713367589647317544902272294277079981018230988510417446705817586206055446214606486733327335357918350404381703264017704142992907911446669943209304086814598890570265326459656183944403704703113520054497315685256631735447149498406711950881963509079902093830886141123734480474859329710912573581217991637991481618930787212474147765053757767763907760624011905819380403454916886627529411542415174865335805516319058802400205515368325012647526730100605473677484036),
  (3, 12398351010236310100718319091669590105692137605902038766706649424744713756402744309964813553289741751942083222293239173314272105390060609506589199397409608405745131658035190613343504745099941108087060186076956895600305249572336558417940973903343260373069787762046228190335716365793889407166203052541788404949807731191571156082941093398544346104778767825951297718030471572216505310422273346935547577427455008782415442907520888767092743202816717410570032650319260424901992579454045803576295544909279345303066617320779475425297664901203374701208230775011831743227920232866633605705774541052723530812312142895562358340546614686561791621441318098504786573879033404913863220514290253674366333792046765093881085845483412644688478659457182695884942680778502114179500300056807054602411432848162873076264551330235508558140688776642394069554673474971843296155501554104131045481212066758176752312591988417750329569705464009641775272162033160731698558344526059278607855859115708620667884218850769598033441887260745480038749335152504012465813266488260899980278975843841107930636311383424006524921339990981794459023095186066596925356623939219426928811402967120221476868973960898605398619895979041003069030967265035625583392445789145241075562719798893136545109169943213277836881172450983352490604653904006445380708618679241679109627657191347787290191534494664058547607894518021839746488225663464508730863213999630682386399058320296110734400640770739760999699314738758642337349794452153796881709401831621921412502572101747283730532817965375987899888792164218110986463001554972644117149947059596432204596456082197375675488450107597285007665958690029508670918654527074786080777474246319397724148071850417755101468369291201684558757941374529762070793862501737609303007395325300395051995065107224790440898565528681805685567072170642),
  (4, 2688463820107211206862970140453979814318947323573396553511463642228087495144951886632500831993642747317806794490495595263194755882305743199235989326904474113491997353906724030073787379496317583973793866995617527406771293172905459091659207231578414115675920652530055389249871581591459358993588762265288466994425963785311117734253399922928195296563826561917373642411975801545592852890660304141549430478903170859911500486974239562058830786062120488036496267749096669824043053651300852650186376824159358864132851545604018355906313354473326708280014303742272681676329212627686862584978100615933995578740963111523597665984128930116983204579194448529336300808842777622884537782121128001936658278856187198854723123299988534223306877911651733732007622689248547557013695272385061397374929787603863427389052127179974248477388766772478985715371148229707414981913694444569090007730588982794463088893643168308567934138046818976264350046179584159697852763762343154271335359637153650460458469801661895305916680597136768460622735102145492093725576335666255874014920414845809418309411305792855451898280012984875030581126700521747667856146816661368165918893366937406165056674486748426859935116723504984771481693101816919300609467655757051455819248111306637100001019868682606679165478736106631943826316551019441466215252486469597450440265138771083675072064983809480299724564176995617827589601972309976850362277799200761716435790898416805522656612367986032881659360669345912738167701423295751795487923028200037025503746159550741327755083844545983374223239842631679460212693241077312312920163325210241280174936764539467922841302256670020114118175557085451600813603761554534684648042480327852602343064844953760250801359666306098955650765709316339896546916828391300045812677848993181840992025724265247803301275939524),
  (5, 582967662881783353734847902891023010956327742454951017591418754732629567718887628049556911359877377532251050628441075843905176420719677235011405605486206551422420035644202682715687874982823390764666507477469822713858622727907641927040028005885586240815711343368306057777678894064061505634385897061941462316637848219140316288401112196232980606890697701604452451534325713705894491213804386252657663813165171915963953302601030788508404137855013712897422557128662175565480790210986751692163617619525713005044741489878902897409129636264606953134984572262461021134600036674142653874233543683123423347636655725437291705903993493044746518871416867037066132711524067576903240463496105527764819971820234082692517866461559585461853571911503637035655669887477337301330791813817630662225067937434319848817823862695781016943541303559926033479705061737386980438856745933932528121869053461493991510907134164946025091316968072196077052248303311679767244388347850268331535125189261191608541727333343947991992502209195495785418498961941010690366799251674795699627290887541865861410789896301818073398677940807969161719970934541482102817715562747098545099543478459628419233737128418539694883379093464661339255792614221247378985545430429902573479883090281893219091123006106302041358757232159897548940256715391397541917676143926561674005336823322203970435304102631075412128355058462857220465335573193887372016082746339512469784428070250322197018951315500482236228270203811285300579866981080462818266859683005383100610047767177283913693402346477088241209578287996546499409443866044728508777121396513619543765534354124549228959395349845479750894581598170043169741677007237175593257104147797809468351826484333520368427771405606904411364359317456834151745361354729688487205213306696157559699005398610),
  (6, 126410961317045335312966837274964917042423666343370746238328903356264429429795410005722201211421013963064017149404816954098693701941544409907050333159616198818015364628474568425181371371604148423320380829909006678661852929530902378822449616651918571603756645612752505067582802848843806964067389908022016515610887879626081367990260263933121459553272978017359419639524425661736157508020107802897292180555799892430373173012941172340243146516159915179928275143222286296622331833142540093256854813551690976081928170942929553547785213266601141099475706666872957857776816652026285394011059182497834928827597152200226615299856505288301296370744151910607329521492406600187343057792235636252451133265906223156379704727371824101322167599876223786567766619799609849686966535072958526654085324944862815211101018870624766903970119027801665081227636550007991246330129707416912039628575069493417408273505860947136302074540458065554721812263467324570386576309157350032134900878996875540149089773116760295270560932145474534458961866288999313534127218727597792010332958970545671659655911902098483396048690772792738967328120298810208420980532494698936839433407893366566594630214656629364614942802980816704908833366137116446235513579345685816795669289974615485686562057525646350326746988975464953227454766945831505196527464731020367731237725052667384635502599133548988163306141645324489102074099831328378045727597437895579475214399635508657545013377903700441096343047125529431244470412788276414312448259380276045896547389363020168438671570272579451917440277321277801049439359799887726277514328095216373025255150109203269370738697191723441456364370922014422227492052929341284554822437866483521251140806493431071394744586787334047873111766170911102977250737244048487367777100678),
  (7, 27411007777184322912644594687259023794326219354718310062085134548487169297938336830587845494524104451853675649154111599416200185511934602538579748871113136311981225678690966283796494477441153158857655900783343441699369179316605220265873077679768256963959073397676119448002671808712545819189366932644609211354167212188813262817421318978459003672118316438119474055417681222835316481697035185972907517020401947310396409368684545047117978703503868625776509060550009123227754619217603923834156345656350671632224434345940761587588156102348752636603200372529944463307398008202988934199511596635993528973612904116122488611151983009229781275241119148616951753928692456802632801513951260124889001285881629145685907735468357793119929100893531017365143018216752778731733700152193793752280151608399144554423787680771476752060133176258965765823463745467271467085804750728075301312227599141719814993971542109892147655601367512519011007615773992900558988012931925018041184791205204633513768819878440045959874471287601722564028885069245627115909520910362837062346528107408029530658139593970666616575821661600117238901254389637677561815563195553632305674760521717099974584673698621981020401628514731191979176958949343780565138476989950301570889980298600365114036863845530502671208278057304130502805668596819331517366980020997547108068156115073008143687132172045934122207046768247597192483587940340767585784045787537097021242418752833420736869463710888249484523016810802493943939041669723353652781779183555052097641072177672842030085851250308996633514413487627494507316342114621641127710344006694368240984221042195267010288713793223821992706478563063513771357205037598376411356991886475744230228263443819518211051826946471078340813836331109284941381843035),
  (8, 5943814836408060186045223667317081576418428417054801665149122725231182023839828016212390106654968403149254816979520374609712546864223721515864650081698772292294041575920400609506383186589967465548426812161791933006879374534327131203650384718613253136622269709897330554726564250877060528378478702534313970497465043310329681361971701980281534550229030903930687257930066792520445473594162294003462739980040585615771898784715397325461843715019747364626045249655191360496812316110720674518325318574648929437939558465209626793747534967932378673095336252391851167169148135147775333666763768508614026602719708084627435416757433844384382072715355151485948737293904699784895738220808995064059295949488905961743261795369439708639734397886939166322186741063694060855194575145370891202228255132400819508806962099642857298562635007288255726936841556822246363369826533287915652521438470460861939511736635761608029555676356221600945261322771396659964834659807104388880566648332908914098705251807430561699472146782517137546305209361720133675831029853106560116067864498044514586839477394092621092863388167856106055436607493478820469264441647394128416924724126204564773221784876112939660550312882648005407619520895786475632598208934535728143335755057431858924377640097545111844504050709053594923246667590403802990451473588379434362065605284133342732263754529380729230972865780150377748495062383436331863730186982352785986810742067359555982043453717380610390286686783646033511903474259237735336063491423547321242022370561622368922965098288635720494594635234171432256773557544862951680233095362015356646232268510036637060581704766685187423093835273331844754797195935982981270496968000515222031464290928026443967498285465605691657701244420),
  (9, 1288859391697038026298285735806589561310182170233109656564802710911074771026527132508322063061827090692328224486289505759883580805857940925383575749798495255038924153602610229583682948019754592696663147158360135965070285380964884310853298196150422137798806778004266388304978668199871234752742330275894647517225564904327897898221353126820383114206332881981077030687801488077730241351492465621573288896158779662080054647695813773041879974936119496527838122756724280076886255389138275043904857773174652755267459005989464335647191472206939274257154501766106831807347322271401496621288584500734147871587189409495801976588103782826680914220219199223673181157266103753786829847248038054395020185171195612771196335908672560411825702895442193372406338082152210522421254582113176909871229603947703931542827904226315477108076727323349137754219439733807179538430422725395366269609105844349858599843819765789024609789603832545936183590949056778772573911784192434323520510050853565857838898704760248147078976242913148407330252142835719686899503698124723911336858457291551908428675050226994360448596717809986974745355168087647099501399112173552412589694703868449863037586130929493127751609132297499158774703797809607809175734094329658850713382346319108414083474233794644037765358307350916025162882492855357679908260421418032432234213459399111369594108593961036722139657517525109049174726646821057020364532135968077612830969291317965510662702883998386337683787735686869827157085743632792563115937503606894999082819645735154073750489694884925020279576831525131136046311306879752588538325123208118304970974650081614929691202898150848731255139203063469721288614269900328191317207009221590814664698497531188898228188729),
  (10, 279476830501254949433751615236279304852705475934550998209987378918671286436335371019345555848371854797723587713583495518478786128197554460506768605530197602160158294854464796308337050720025643487473375079469102060028280737432300780371716641489154621991574786894082794088814913286403351470922438660128623534867279633284210357478689472939039696369730257891544428375642505997312125159506387684496031690164792645781200310805299810026583918279560492587902106253876642650373682628317644121616689930824815645494729228936664220837348817287658902524464693140447469986807285432055158270524653526478716799856488620675769426757230892125672311952502169630957066472364966699016894330553427983943161036252872966581547995360646182910746938445761245876148033878184039731286435267104397447084014507867498493269112807992123960986206154490018659649505528049648456561487413267071737099620330529939706610197014907461499330516643740450206701643962415252098149614842857049891580007144133994661380219966391816250006997203622289654917182285413602347929232858004037646182056729511925915374814801722139568175379893895907565838872231602014906030306199431319188830464576919084819159917647654659468687185644562143945003069930183818355645559864639298910079268881494452743394711175976755942005817475775469246071949332979493607415621308416638085162914272893400155971205318692228272444592492530539688647874365100759249741722462784948984241956171658650486932870814073885832646478303489860642253960899888636034297385570848586274545931663512478505661070892968821779695152423027364445024124776962801377682739950538511996765702215026431718873304301451480082581665712744230762633403891179425720055155732656064038426127851),
  (11, 60601877357764741062506455405540563817816710777094382043159903555921125963942000139068532057417147636824682412839278765365253124652163254096549285341499908873439178460454275279584061899139869564808605408795570133832016510749548261873979613437622615376520782416757567920508326943687102232940529901788439834552039939777844209309867244234224332422848491061731580086874425277826622838258501384525284194821109452469068508395159626401526168132228224589422273640077318162344471424249738138016832956592584985680183419924178089118689107000504961161740159042977604558343039594412803293433107465752401177611425973270109267615678459897298104824284981246391003703451443964377141183730918555401650742742203765000669242965151414944525949498668572359083649251629505349660377571068965426249900004548135737758245849888828024195242834900390598405052391646839319833397503958354950127948820817539980430525928856632481736944651403111549931186215779478189068681173229482315554115467364163419720684787999719885042904778747193916667127747457288763220577535333784510482413827137306634002745495165324109477341463295474826302231106955837239402444309735904754758579922403136972467691809102029924472470900210318772757731119113831979565710902370622482805640080914811599932502210279583797074913059190096335843964025381886985058752802701026898109400760955694641650372201590377482213817815954741818623445661832157976795586949448140120959238456403516018335611548451828543509494654996374234496974870842239578177073894162220678430505628515099457538660121213331782695070487517198957445554212368868687183394084983580252779947463999665678135232619663159685885993269466592984104347772359088745705343649),
  (12, 13140937417597726698271545310741805068962902240560504655069916272476065926681026642247713278827319405793537659366697598308704119946183127219236658420246792878050208356893201458336981030709930312949680365767387791515131646578680902788980146403253270099926447169450678835187848395119368365092778942233944360139614773583273672593181892047512763864043077498769130724024592027417772532735114687697544373527589562252081889187111419141560582752024306840259842829108803807988206547834359191895856596265180306665592820287248196935738088901760336383296733160041968690411028437507822021306403380507755481831450082862196209922461721592583621467558333380329573125557058293593878896659803586589765142372286754975135390681451210708220165530519780753922465752884875630613257176609684834601658000518823348191743849701678692365932899728066168492617337064062465387031681814372608037357645639000494243631868130041684744024790785427732956999250895010717967220713100738668300373744828740023096053014121952296706626333073950344112681994572921171916772513466511860899546272333284195801489078137246865094368162417022540075001235087496489898106798886196407593118556640871671667023814815378987500254329898687066819926763212967564056838895018790745464152093267675676264826019991540376709524364890468267874519213955887261168859215850330039527489693169817988145360371684164528965371399651217277708537070587652646064530032642528628221117035371620685345626552439766068389389297149023355631060604079065580941775397566439684529747129369377020445408967157719717547289333654926046837466421099051261165582965640049600004063035014567628999398432262887426021883680089527087522090204),
  (13, 2849486579331101938357308160370283459141634678623537585793933831151545425710214867671446695884797600263392873761033544485636796475934668530507088141538478934039574351922351491077120006583742808227835744017253024034998558597912097198609678340780167675620888243537728379215578030557175516582427003194397895145690345870393055849131539590502231851164807783842681201705934286740730380024372061489607359264174503730978231432591895724628511661471661123769184491716260951506145810596940716220586637280208536310437857599250590754572714862783109237691631724743923363369107643895945837159040865064019915405093800775857846571723918794472892159819093399179797651038213490910122367926662781166628356211786979331798088362344577533462955510323079166538907734648069216909714064197183415803931280795277304130165869868808090370079916575434725810118724423417492428035362377112629234011038536647182631515807543422886096674030717468779981479340987619547336979836176139024560990644308295733155868825499398417767575704773478471817445853547739178046725963493261695286883958063269771371683627912456135223184259694059548002064432316594683115929174644554246049777742359317048390747999729094989138350521464846102657139699708097456839999481994675926023360920824731978974998533730194869276036071978508058948513124691027306256278195062270985721526462732745609341168514951799341937690313370817236380205029166093046580540648676046942365550707432861977296706974676917665158501427812405628427539363533051624122074472596824801052575172599649326720216034993897876882028776045032980325248706800603472384455785898964642790138821855504835593336486173562988537901742),
  (14, 617883907955813879526076604156515901312989003554252296816799971493543788971031905265375046899390145477433277105755079960223456001694644701104099017488784411581153097319747077003748643787357484479480194632824158705140743151202277211493242598751218522659409974450195607332204997589333762076150810246209960571784960356034064172014733508365433702535877520373480490721020441754718404400768909444523234828560408989948340449999499238838362311871030209139024639681845943449783121438224685154451639374767991192305508986387898453627603047901016874859314929178936242377108097671565256462355910264749509920107789682326287148154220659937824242207443106531950631644459113575663470188475431266297656594171673341203109114488468714850053514982208448081733328378000565856654005608861132633756219787214162923625478455194093862826313241430644487208745372102297340283990957835160833844667929594529089093493040522034654941094178125760674025045675068926230158304641107159175120604509271298811104263986426131472635268357824351525071420109642394392898400332637383214597237287037611439014296625117645300068928160222906139387741979165736030672349928921730176187710862918965454362622948090987409260173684599757985854088426369499628843583579352645409304283234976813594142882931421336894911866983885608496609137746834014588098419063187406306541022366726747776185747475487043720809347606705846033941184342306925924331873649222187798259523188051019887643754605089472636663163958323399061446587760910293997806568542982232593878390310531468905436348368816433120005983123762983571850624025825923331804447186816371316132016425652015261761643),
  (15, 133982215069905373044863813036053370438318465893392572437191907422749680502199318272733829682005815742556849260643882740719809416806460604744004961651990918464249356453553263950214898211453570480420382364116593393889342520031295298329058934669476519931358863239272797578582112811402027311517403102011949461434935060074748189503831347061471880988041394764383321303168727805903608356313442886399905082835959462542445047935429346839542103195588752969097865418243269329009490949817850339142387138045765957058345596893293847571793467607285871824304277169263755919701463221309382846521053063412250189404594601539196325672467793819642216766458737899431549325621387529875421364817190085616630950929671478618104581749269427637634190812204753945979448546329847267579335040248761001792319100231565221441532233654939153720734512215415471846300477565724860917353336849858716708251944882093824030858898755697605518704010037102777567400608743827107224252545628035403193581161775005979823116896616602473267074914282510579910491154417149867447216101870560068138078789932509601067869615806594418767420107606431476372157686101744409975541878721053236598216820493020798420509641754287618471776625495016046558142930582141065375520346950776635799070162843365440845954233487035496128631167378798390748274923130711611240295867716529028520667038749538631018724477581054634078699536429678280605506296463652045512075111572031916870131437608373939567571678783943542192057494031301249926422623100698423513390529153581396843034848230137931007543506799644615057564206211285109467625898929781127779070149901405987241263),
  (16, 29052761730642299356858164176125229751493733783946320921761156343726322772243846448136455683342182173158001943044998564044250713814846559420508008162174025582769702937870379068509914951802527225752297744176878836321784564725657876475299630428599341116466990541175450846440596201927023335005208185738514947591978386131871976502887287585745994198341405881361116033366463669016495543307704319735708488176510312666819995309454181461777402140472094540488920828684985437145763471564036565803148390837026689328127389633078302290917734209587597318253061529560566514556311371646131353773356723673889627429465972875095373443470334131538997664537602591767221993035909795914624726112461747147070890989293871900805518724008661596857848334623438877147730922239373278418906580789005451867124830617787837605508356852175868305944630589945832593792493771397090350129180858699717564735784872219196062699640303841259921052720089098022098006407813137445879572672623303957537775140084245042317458302695346019505129161278218074879860783913789714452979973534502167738699619750018438738757522245273590969080336033994958131243168403792051130736450171644729662594012616176369210011055784999072157387593743632783837143485405664869493506409135207745506395978126645781921963549854962417351753842482253302477091141778707513988533516429081396984041864919464331429027794132451410905705422503684683401695239181999253351922192940148352072153168793658168978041614908876166126673956549626143044470623999884630077741550417409978126649536056190916125464316876155972350596462377870447620149658054806341349231),
  (17, 6299813477013220884312653997734804135450168183352720174649404130582915271334150991783235351672910635233285367897679879266180665286675392940581028795567821255810587906811191280800642463537514255221399243680573776390911917213575429374073649736265667600360693700655080247608721286750385623577415264690052603130043637372278066086525187619545158824370094908866317614947875288367470228643213614996510176923129728135432008243453309510640003357144172516074771533900646926561959384363057183458808060496001036879880451289147527909103217388521925405697175949718053387560776770795587263191584269098699281305628873942679564844241570843952456512431822762204138588634832540647675869731776105679291810577956192067558583652768364084980340448036503221260642701195885351110542927250936580347226142198342901001886307396646289769224677944568916740480701328978410156432726731468371315634329533983110929205342889655114814968814302535203573500487612499223267366956483133065791129655164044631456155660182025589809369823745231077937302687554589506502286467238905539553467975967810607850575927786854025162199460577151319926864509217531280637527880876341266062160766975076885184618165687804422736020874192962967686050397722204174279837979162517099738925470337762635417898814144310659740763434820433641929530068022102778056462782451336662646604954827670746091643185784460801483153254227090249943320693204303595170226653316671058312862170105306621501095355964097025142181731688022850459146331879325055024174786544804766607820645719168919170891735221806733505695450663516690113947),
  (18, 1366054291606238711138926350765559970149265462396749841405320336605776074648015115707374767214809781145398479560465476292866190061760451435287234224194211847598169096681788612150880963483633285086362284081128269689503476469706622391338839118019254235321416653478977842132708734666819406388272602783160959218306887429777495683130755611225657871481927512799770429518067159793794152688787626416746346619248797452168095214271862048208687605866817490839692966760656970005999390654471996289679730451425997373613195403313143144232747404539746413056037851147289773305408555718094180366135092112293340455136632149762091644990232034109601169200972049148404139835157168116468792559621675824055073939405908666228656963897459131322676544407320038511504339855363846817208286706036736827793406079955273104904986003038479249829020655098019944204869489857081293766730839396083046261027224107360082552715439299808145763923536511887433313346504297017822972579875312824557301568026964178161760505401184501140706377525023475475033003219116470028924775034110865114018464201442258159247664504482611106251804796272322569816141999767336828832608006391104817230879261572279986716788642777318383401303200724140024231099071759417607180713593800700655390888674101862732808991897722380876774783577353678059550856595708745709464013306748123157200705679639758690031453416567684546599457025846387974152935439434578793050628495430374824589304949325210569232515151487165774857927394092288258476696819419352248593877419379599838575733490420973457529932651594051506076),
  (19, 296215806138526193435527031917304481184762636080468490669887728059529792067039355287092531560902182554623279090492597651186672643944467460134423374564088813573000688077546419267526518230145518218379952308481715454838186458637637164642154024853871946217522526227136682256088311274513865183177310452223260773622253691773123690160055611137867974802929928465242788762330944090941544127281875739531665376645128736556389235452917812311259412730057012190970878660964566742483324161696303316376374734937015943187391318001901068770192001705156352524973970323291235057897694913152180394629537031690480659248477125952202250513534544704207275043109398655681073458637035091280946678196282125726115511409102649161608696760374198374920040750338416546006389823178234831993935318071619835463381689539226380611664936044771241044536421969311467187986106883065639962935143842102488291355067496764568873435238579251297818084739676320373775598335365441851181546519627441827640047307893648172801776034149269885143050908868742541695560039525783119621913970056177832391260553600059075252627801520930933856543650945174831111747117594615652826465875856167098638634767511939667986541606585625025802646072782037365547417626931864613900570385423650399672092923270644398889147879218314541684722289143266623768405112234448124182158449926067274469186654027498051746604984961925410906832534308040927953940479945425596278324483655788217642678308211422984171460996934099824950746764494581454621838232397927340496283144042835808360821442350076158075),
  (20, 64231564107987016411311271075559990928374420846029962809272443400529825462087235249601890467371814301940696724648290658452546280316006279959684819646076746747371660533646779319972964008132438035462031560199779201429809749364539994312292382291800435372899198483447216635403301322253520055065154095481499945785737127700558147662580083823465905572435228413546540096177304815740524882756818366012002503824487001741713862474698827163650996649438558185874838202006052454855882951666499297074625116220114113162497114327471066579797155851906999913919336009381180928257096164694726094057513559327450725609437970141019813496053996075367331004144810854546034353818476360949289797844052203074489375384789554650149556422306414337427352458698068363251556215246114771257441474962156058804878469548850521305625686946630210959217770850908344130246888281991254644053742199448337177666414232267685178565020652390058215509307056169436310514694030078858816830825114914237061101860318773928546386464468828269459932980187274594453453729438490831974509179704262379702128627980759388391560595906908847298428396055786350913721463535782024763047685202684054395671253964127458899357641049375437042847598040624785706472819458137589093495356443830236465861065084588853914704951420132394411581175755728327601659552387728273415218296056174022824446290869363050607166950870862442456761581852370400145917752136684867649017056645880717493077168467991869308114369450352310698265566399620654672550506686854532363803523647553204757),
  (21, 13928000269604294983720996361437406117154279651660061646529813585610992381924550373683448424627042473350538887394086421439633169283948861296897478052437496001748430574590113197073280117016986524193474442124734604754997860020628140830067663131516034603420643669311856960367670352659976318813366202151115161044992078711597067145521094356653393705382847827472171472061893475905466429378528546819369572683266138293777928848240580972623564497969454689039278199016521573416889142105511287180162855558197079709079105157282348674238221256130108817782077107332719301275827832810764202998960447848265614248440043776953932814959257429966462434021625977452453465529182750521900930286042733671581848869763582210698186964780975608618913143183079745272540847765867694036027884036203508346904479809210920434634534574929403150385801623155108828875686341000790211480924779534101416679933808742269836647902237977168042608775319818511720346292139949499026619186907314678894891941247142953820311676910917518695616673573267793032907960462844828319889072297244127543678387822799958401675803330042403867282271292789919447332445336608283164511405959145422640708071907917492846754139443111886806345574310783041761735068975136438841298496106569668956255905520492691875490530289224271412463929403829144654948632508714737925993278562985641278478878502711701433798692973269705078378204741180296409199681944550123715931286869699935364422998622796744797057378254269840819847102512048799711355182927595419456),
  (22, 3020153630136733617925778429928177917514692523664860724183893987348666854173177169250876044268793707513249955007289119644640783286440423928166105806456433093493391914806996071980918124067352158920441820403757293370665020328463038242241776228110228591895551295603707581090586977674669156409553060868489713340095283110034110136070082869117328691329577452511934495611633886429447854255867096444730173394559194200956425470296646152846436949047654549653349023991217004573425943262377650204214261974238009139472397918142612765784640056386510372065505543734258343637462327834330957118757613796058820549778886403639291720208016798226846316636510961083541126371553563722480267360053395531756673772441773506057276175536421454608089427243286433905416598300749856341406711812391102264505953426018242696946506269451328693078903690452120688358946022159192567007971939126618326278622769378320524710172795418399579186030400664572858182265469014257282157446760905418990318588037065776690563478845485138768017261332881577025661510610284667217496280013707500174784084490500894953645535600393798341497598496992572692857739742978394786949694408031647116843092908796122353153556933841611313618020141356570108423900328029699868029916582853533902673347563711317661927106681866403947493508708153607003917967538629001333640666753710972895165770537894831329962471220401411975668269318386928037528070252848536381828814520910660843872071793865566772947709171190665540363346603578028399),
  (23, 654891425406845844871127181980149655776233678681533934220667430463654329235205280573849744899776796752057309033945543914770067330489598212862323566368017786448349037074203599345724478689022590325739083418698512519621030954778169433600183914917951505805805533019468015035663288560954218774216170284578437853235300942433396856786950417052160499620944211577889633754414923785287336762159187672368495569994096598269914036149363305613287621179581649645917123710066278898197854836580442838804117877808070918839908791645895198802414570095513973968258666981441402512099223458893872751952658629721209891891360541737173588506661131473723197779705636593936691759709124160507590107030652536404250805327834134001880652822498522393911447486069773988829121680644324586875967399170753702409012220963424015722095679768237342913058175731387848222749578645080893772613373992271315791353959915693314124115678559368599101915419253122304909282489275174859845763022502502107077975792408682524264518870681283586508721314333276901974283889338260351036120318538738459192697858251520941218726636815721952596564820629304349759418223384677842495371222530571137899240891679012055821335378735854596766746122342917763608310744236038205141483835409954092642701416105505371607930425227726432203385218093698144005558878973304648503263355688271859540979885553532855687073082458653897976103835675937964973049867122658965952344526226445218493133262959333989990751220787289264),
  (24, 142006941233646187901387167563103086247217766011060709505058449755790490907833567402377826137216720308722559800049244924734562208828598188142196481449153100557302401117751207067672170445634171091562011031759418354393524992932591075744264980301863995954188939683327290980997836426878561181834439060704128709551519791618228089695097919227977927951894970338543207573196856869511737441597574396203421003694954337078913101420812371538086700956746958887992192568480963101354846148397355654027209055098094697090228814645583661207739621934467729719302798190855957675493170240685959310541623700676953311461873623181174082484528472165457236895376821732299596638010335515577222862057329309003234408315460042484089141059831816346799703645414145693164642986093331524446865014322470885463276803642791792491586658776403758553619445723971235573460937710738140350464680009492193034647702062405060980078064180554516579078343552640962754058865296759259394697490886929472773565502190185593345098755507837980367357282618174693700819801518169838566073785775660761243740712054703593167351358632910764174127088223201576888702237377122248291410688754199371307631121001394258781606049128756268887616950447249861396604925230914575740260064214267994691601396615957352910375564752871880613807033585714426389675006829959611866200854337202073964667043243786711464943755720242375855507087144009923827751001837009269660090915043286651610785667144101546),
  (25, 30792846838708111206195018510665763514410864147880281127192325261247080322607555921895281500832616203566553134128957251969846718385238848613872813038376738902672970121381708528482320140026840555427445385107225873556970601469416537079562913492583721407323769674790917013056524516583855403845227963200609662337414529503754261219112501818228224792613612242825405755283828436684549916927298590352987165694212987781216524913757845652017709747348584361673713261272939159712815128708449882797535422955979671235102238380983576245327406069144362288840415888269618094504483718100926554327902822908751702054036986732246674290986948191152346901051174515321479111621310568029329739942169997784705606655001824224495602840035646165558879504426389749768167072896987163403335438081663937791012987970105535907232559278882683042841090840688840580960631827969606352425654441534689116309985480320396775338176548283862617727302738863502929645256995309709257641232527710799692159669747317746482630823432380330227452443873238748363383056652672723851298023696739539677796755262381916977932464199807735163613700520586905565624985368264729267876829583799508206126034043680577920211559979711027796023574067438569504661215655121980583943856521267678811653024026889813300995282875078245673336542249761464839175254672380054711522497327660420969418929844970188143000687805122100919993497972766716919450301282158718528481151701228522),
  (26, 6677134287908146303935868540584860336748291216023859738967279074371911963685417344570413115102907993494748954626843065169467359040912370303147376457284632320512127880050279812217807965494408484078452623744483217316027666703770406615699425096255503224722024424455788169094672460611075506703637217310212729009965895488603023973658657732612506405133101319717755726091844874787650616467468553225063342232380518826929945405620588734512984081468064321175839518939382481664215449589773687515656310824497202007405463025272299258328838579801805157416070460526938934635768595003512953097961199964742798214537098437556507253241207311491547087832863097699591000745923752174063982269393932351219324258186466486186494708563448613565706032711271134450419850101335951627775836730616843411473659740088036172067607198362075493733156382347997810307661980058706494867099285845536803803917055929070473434520588292512587890623758228243131828092020374531058813715810036561859591113880137885405956977564922894669341096196256114576666277181638054491886868260529985719955444045269129134614052332140139908635779053904897466701572257591019574717441819436403040296232524263125345095579752251685548185288719624782744849126202278892889951246464798797860711452955066981929321779409609058760103349353638861188842156084590344571744151330338020091367820603594733341017964794825243434865563071897344581944053642417593),
  (27, 1447872700185492814563012641815491677824765646551125490232443369985852412193859897194030819346900263697371186343510880389688784044151667445380097677699752219848276925272023741977926800668823346068978443105964574046102265181403479154564148544366141375312962760696229188537487568591705072862925498415342086730892133593681011667868430664353037990985938183084744373276133511359401447359493301785895124661587620805919570318710259725293136014208745161952464175096493188131729261102585145221889346128166721458081894873543426096587675158449516424920084090768898499591185401248474375672132757204090430550613627040380556535349393238612552796502466360104985497033309206012891174427976406214286535155562905558910717516290405904328604586312906722186036161279497302312868158593064408771134721086900190992502132203684785189425418292843614293024711882894132623545161399498908434602447526180348003945043951473468647625780577380890554765009673261285123467514492039925619473744614366105798478201596329708928272453639179450236142080232410121638543345814965944500975088812654933778330443267725890101143790258554395206318327785207790122956943318862503344646711956562933978600120652254793144706463581219849664960887653901464929007829533058691796159280672197052750845970405643785632902398628926468052339010652561604003004207741733864837436810649991472355847069659202259901346213598809139),
  (28, 313957345404712936665220896369868822013580054296841593972466742647354673964507704348633853399149073811886517681022181594520116366934534949170744424701314708219707230256849333848260012403048636790709527418761527033900512473940929885285210456023743091460027176317652423450484366614888727544058389826314567932598190013071464466487214958477079661806244590602951518566394307669237878008230879291366108687094937889431011573417396925079983939140207832648865464108044359140059528992784462964589229257626352418517068672306789957005242950480687417823953683980443998779970775193331077757857663700489854245959328217149525553238018346497457399979551571458873274125566943272759682756242859226619370010015859541230232173879318134022130727841966323447086960064309433983518400884606959708668195295797031854596835375651195361395961447160520175934863888858297257397013298360610099074018552880561873817376568154943869086914160174090819496902061773808564869706915283940446848314034860856567044741971240285935203033151482662063489700323042552899223048866388850026103434184046838056395541477838765341101750162953738507644747510160378510069544688714519871467750167016542316080185673119714938940929794130353466692951553251015778698862121978068518495167579919472333604709254641701788854948898532041712553191795566691899531962615418522222079067643065278056898121302655300),
  (29, 68078647191114428837113451011668752827304501041950402210708747130148275123558415315470722319391324340411972749916351355556083213086131152334813412495983825424008599279461203854367955805481421421858250643978335888474127628427092456529048510321476567518815478875760416871408047353289470637758220330246044384216861664754672395054646155027594672775236455267010648631243331621981982392026930664323542115747153059807076184470193782817329283058505356258503525065391226900780515665538453618019854957998975798413564063077895853664823960776347919180999891611402618843728403262755066227996215006856860467466596899970982023365226697559142716621094267356282252328219217545065293712175296413404585976019895283463702319971424197418215858013060528627070061409843462341616098684034291750028535381319441150131814419844545113633292296507016471357056968895410013097259038990089221260796273222357413248787708694143228907257818767178972298372531994673917901954237251302249481859688134725432292712682040659402142088480586635935917613208057417932111111426685733852648623644472645403267266193356216208993659746610981029931388699423088304362831906244995808965067106207329547773192072250835110317511717942355013420154860240177355491844798380871204357179927900612926675931080365125912844672668096893908827036075041333564199777127309041868316492325518161),
  (30, 14762203436896068936925765327164109476126199862214687115535721971319482351465303630089424925905510594992490942890697931793739279188212589938124107199480921443995024380134560920130163148621513264776897329584480152839214710264844623181816002108976909076045440505215576990304975236590692223160801027657485072574848662282971955977643949906557848038338720353820444199225473201610266275829377456200399493816102043897821505704489118780510836991015152701837076137285770687648434886506675408079869598871767930311773368118266410078089491534039399804861735471981550105296338703052667335780265292479385195452545981378354460743091696779218373373784513305202953239130391771425919972700162925671459514064219034443764482399029094322894187041289088896332016484809696831966310427574404668374065697368342233693969418614923054262704975538617411948704604427841041382313242790620508194181773317805576133654228137498023389392980168953311312059762507906318463956552311127852837936852816380286255354898420933072743613686937032525854118349680139066233579195192026353429150268309597957435014355900206857586520346256218899283127402940582758621575406729079317242048857694112090163854550890402224708567227848994245688584836694095345955814331386705662600094071127976302337625045126880832966932722679412072060136100324729184434035754371234),
  (31, 3201042607391139620801949239827499806905096069829859214698276279080042968384142282602767621658612682372070254201480532902055986229495188682076959408311690982644599187798347837751192657281523817535098774440630046855328260554911696664191154698130357341404232090436811101974524907017677126261482073734404977449853228837838385147908877682051385354672372416150431262656327391613669297914195069688268805730914546090132954717212646628202964205036977953561476904158544400755530103776206100473785033642423083577932003008932031290142504687604253277565915789229488445622145197870144260637104230491255442674655476983365961322615811172326169946076151326146766069136241925121724791633916407087804506345263811990558344930748430243529426754603258714070301103161977609632126692698006548515628311956346682326250670755918874783613306477757581177641457612691669092124819254340995577986347187140438663182871540792744698083138595809460911963285797297012041605180025452720758638324046811337243363109502142070375905060806691037825032041313573287392695083533962717821445741288118411392191382367642234377650204600996749220133169721415185701234435389038895770486778836140632059840134050884374274010489589729989871373929410456090020469702610872577087089757928217588487334320965854124665430055905038721399366159808080),
  (32, 694115469830427441952781187799246871468374449219589792237924503479430274069414729754937733013473821437754948239722375674491449287892710141463565726334274441657981453820387670068027761021647063076699509808994391479471836610023896711633711843233577747017776091415316559742620197423592601059218069251549890010948492617667684336069704242325366000352922905743759936521529457547218932646881301484413695079258208335796197913556850209740632534995334907771172186111850369484349422620597655902246432766477414879280679603160082167576502247039989548984436568364747585118066327029347792977379606913452147785635828462518663178236716865087261641706107726118410288998380149788726189941474338877720999101457603712119217010955172190622211468144417174960662194610513310729508269897842105815792605352143855871109869210765409363034821943657176967676923453393751197256079700802433947265222855839285111890537087940514829133891878250947465603744731951632402845308592755103167372147249821529123329076499617382098749694573128746650665116711995823428777814805479312919464137503393267341884265385176127616927468848774149043204910365054115559958021198159351975310769316755017744479996152780195007653914475272869927404202301682363873154985357982995688836455087745294162394028547631839202467056364113),
  (33, 150512300069189208513889628162685690541863086770125880527426287065291516280776745079507423751645867847484839221135047972709160582576562184624037954381332669872480933072961943199744607449265045370709910460474136601211073444779373356413250041279520412955515966677738863581209095656483669828369988693429345947292469782839537515185745279906906183322322463514612751171928372521002311377660320978925614573992835550595484117719938557279731755881425513502137472767373947698806342036734561045805468280691681288989570707331199156242890904702111240800654980117283780566124631658896505677663338457142139422687194320357712249016018085041645136792551009399814228536685456184944458610651541256181205775942360289363785312990942903388402977595862660427910996050969711761911572704194622306413188416197764384421304822664567679334982244166531842503980553955356252610790046376631635884965812885523908467445467671984179001680465199941816456517843995641351861661661872395422566103002557734149114129856512755222356593144989083557754627800399527621367212636339283233131742773539167703021980782391062922260011755068150545377331910689730184096483497487844954759901108181707606761208341446392643284836199163834829703090381456098154085944359160611714391087832929230515098835179462),
  (34, 32637152544161015841194326548318548268887300406227115524019296235946618082822920951337246299419041066150114097761405391709787836390211873060057558164655240749917421403963191202716593312426768831285727754781794619464153165709700124706653892599929622345649594950494508997199716252166148252509387251389648848499180002976230361977438273988004693540201542037687478666335771986818282206741582933573085627431841005510117322830769812160490369874936236270402700110380763829754356477907321038289848979788992251579475526833604974767569331293293122576690109394527443806316681125977130599917960765894154896772917826945536132980077015218315381609650611263874863600514658547770937543308430243108473326126047494282913157314169209447639546693287263781906194757735292193083697731581705448651430942160859555065081510156211466273161546656879673065014388779685178458341475072910751140097746484440380186027020161064576905929023728024084641565130593988902422321739082373342093570696170982797752118316841877835974422418916192510678314396757108611219259713819308691906283959028106230120080889551156948657932080999432983805444209169367137983612476121062123967999130358040852309659504732247523384594000154749349474376449540393766565080439153458871595851568994),
  (35, 7077054338424036313263417623496372387011999883323058458711750424811408426481660108677076761698627761709166207970023546729293406520136983973416117249198769312057456998462925984476732462588834467879367922641826806820734849800306594201160950304109406521363353764023325285120062994216791513570161380922590351926217269276446146120350709184376632596239066018102263246403666775453014237359057909348222271160003542193524844773064152267731911416150206909509894803921478316020005617300866156719159587330870536587680811111806591362559300132605397108331805940806725842703901396083632188880660694433581174432764310368106618588598287865579338938296765801389738672700921751141874806975755562071038706199197306178941622624454544743764253513775752770410945525971663823838288970294815814590792012943634909711876552764278023606316522158324240292240065851996479499557253299504878930267312818632601110978689708121896718961409679040676643374829776416080549935692575912754942089746591408610046099247711546008273218803058221094934870144581259623373855876609434744691609935755404369558735696115000857365373604579568525837079965789825557199221766478188055473553553988133489509176454884284842005014651140860308547683580580989428384045473045),
  (36, 1534591537703460897772723974906855772635562415131021801730394121168438153360723606487985161038082695383442394261570672739175034415636036439443706413320753706100898834850786802996448840474372523505837693624567110238656635853824825084097341165539012421713809494133796626310602050688238700256599050405515624797894330340099969844351304778532617254870062804713669847531413304313819144704035359553505721027977393364366870888503819836012237534862852059094127811960941806219175983408674266024202380893883028926820586402731460404693677601305321133289894633298816537555960256409359273097564944096734353776082236812438937027692219993755114691387823576570735121787839845809860378853214011889834812606819592424517061960439258456182092925867470432839213473541700043448255541666682846690648877831895474832334986374264408792940749622622249540934975446982975455082827946567178486398818770973634713047969412432086581562160939062272632188876585720641533977027080846474327005898383954800494400721634887961964762966444141532513007533422668730791490578152112218347817346883010765900932183465896867279591603724861580506746458515905300023959573637523472573628517336228905902833896380927362926881876792494418254646313509),
  (37, 332761495811192638645520548822393256278108574036084114627856629331982570561242359073454835969489208572607123323914012263730243754823286710850335608375687878100351610283152307346337045523492152436553909626259505341343346293003626386866972085948852637866925598929181173258818227236755079079441154634190741836769869341727319906735463033108489579031748438002831011320083965132907648608594290088834573022609681442060108508053006201567370090212076302520504023522275238531783515971121089650183959326966831937453861335193542484812087558221198528196684878726451460632443949499712188896315687817579961946262993682550162036918141038088171608250348730014450045028296584626811130255723787924974877427486343628900465896477666845619920618813523020155796752726336732701576170874198275913350967333583328299136346413436306055483015985971854075772847809979527142688344430833274119116787519341621297483565648267444931512247360213503203782623983089860984538978731777892059540926519788954561645596661242887040556606009212246523219467286506925134178297230935558762066105316290820716132927138003285429752794019706978197128896307612121790903988367286769336809246152041831165460600840775147821674772468),
  (38, 72156147335604228294877750953308118076033229207313071737687178008837398495375723387295776794668324268246258920284765560289560434246557666211946014587436862149241025980892949124666859136891578231329235375450521139336085062322437896553466516546134352122681525485427794141597071431788530053497680017874841443429424984620127968223939692243462743482071437932603306561526254083271215286400288285514143200141705467685382019096220796014934821509665569976925816038462238145045062457164208156867569948663420999855818538389049224663261958073621022747713420752650139847078653618136059205970535196612138993738739671080562519334252745695462085849585140008125328854192006743507959734442405584847392467289939898007869857561791603454111960659950825346667167827839546312314152151581236020818828048219307589052337376645179139511582237398956357576299839832269728308790934099421342264159144910676274502204149680514976717678931636272125564337580513704650365971845039400444643832487072063495951460111549728164829455370525380793649289229324598704357751153851547460347815512220440828214139768494485838035611784773702316955532066183585878763107436727700705813351714176980297385552148),
  (39, 15646370339889249385117432586049157690909398682269839284040064759378594560769752869511381634502584617846521242893260222601370365803206335555200023992917983693677679901431818930435949597755827529489814761733246438393768616272521545996294284757591772812856593703998602035467846824120372884551785735299019459123314180950991669031970577896221422683982021368333673858363214966298561806174910562453714617810009098597233730127911043587851463697778978381614300571508875689352160450538142400704684085988506016776127901232233940973320203820890775298091369450828741863414856739777282056990514762954787420044790981352840888191983122895906423917367882766032439827599922617297807191297558808553471776907710824893751160911495468083356623501212826294715472248999735723111393241739691759567810336135419578059418309910328641960493788384047198626616161261683410448038679013411500223000375140885844337946934628278322356844801228247387256077987273762873660544087501307031724606736080883047231150573883248158755305124794724620402617582174044356918292000637033879733191730873996347786347533039556664348256979357394898802070811877256120829927232451980817293510898),
  (40, 3392765742804136918315204766915926944239570866933427788924631435056869650884709643122131235971438720190012272708947119257448786921681238853943680536139846556937505204208691710354792811473993466818315007047317992072302160500815299589797840499935114066457822835741886735632936217834286842144575480200030340752306584114650860208955735038917066595168562081141734203193308456693652221236656471699661826726462066629743071255144151273155172907014499100137322257485454663405214738871093498424447286923603880923211307676179819978219095381941620950362075032847671592811636449029094533533882947533264201633875754806017743228336839510419740377057799481820505097582378150918400568778255574707560764109785360200131187915389331409606675716847956696141495488949359062812148069498552404927929028774116817121456639364512118638388943685624247559160351522408532582974366692392644411798370746590270501444854518306342136595988196959117465008997358251285144233924463091948414659208822603760080935951113800670251716081388273100483927145298537902434863304481300952867805338053052311942910184681235013764118695166183728576317477986009634126551565),
  (41, 735688797816528286139600009902293312340344026248288321797724770956830782389930782633048116975381412860027991915011948537409208743323185727535906342647992502106312564790091681665070527099891322511604030362097031307418808915792326218206302267733647626243812119572984430556574180053765597985984853014468869558985063527282563820009310202397466215605200307782939702603037443456831745056312293447813626945705727917613720190374583436440643222227379440613199507124656003014643383232045056391129283167395904241076894383636182940558990519317650012748647507200295170519919255673397148884493025420291654938339848786671771028684856661295920745255207270371757277466537251534853545416107407338611245296201885794721346113418761897220269835099990084132399874584710498268071069821208457465269000025176827746104549387627903808359419500345610133218320354970330634777180680240409277248198381858588844530184869683050710984162026750860831078927925850677726139768826614995763063862660539430411565607957771386205956697487426638374378417217498817308770896123565119242098129450888009147809599634789336928227292961824903966205227),
  (42, 159527078573185799744305753893371571944967980149619237107853227283849850306305018018599183629467596490196964794816366561691053895064269708510345112092840744217571807978164325046277136949387392820637816014213987832153632302437172188991441885830665637767345739588401422525025769381286812546688159925025939265693049122270552254785034172920552217605108983394848001584857320934355263240111281464337495818411875665370573676765604776891133030078859778239646998435933866734814418692211550402505640832910453667655197666164478150292444701086976766651652424036889395478465937336108630177151959687851712426714421893660101914986102926513572169223367946900568284470164493070159678467597839648694580746931953546689572524451184315860056556553959560989976567830548619035812634936737606429960843299878926556980275090460647482122989482708650325217406930171694860864772086528987103449777867546519076382913640057811253415549495592019001289322642199022532396848912938590879314514709282023775080819161604924067884336926216397227469092190648282818207519176057494790883202649525081745126383611657438517956423),
  (43, 34591921031862761761768510047160242332884176371355298628132650773407225269829824706145426154835079146392032434126258654412731298614734852291358965374439064785565783468217829657472494736263045253986955197760349213153514213106557246186722233396794803969240816458535957716573235422017502875765774402488901848931883609067508576306376725855789976948237196970494032777039449664546742294040432981651982758543581263502175059498819260845116081769878764945504937824335529951452220076511585924658525718252005162354635445403899681912989283439703211228779463903018708470558402365891806891868695141479201772248039616111136138302196727024167116038145790215909560908378409389851019639292590527996446652023685944321219869067340646108939491560403213909720047619366721350501278616581648362383596372268909746101086087343446069333567068912534607837702546182413570785943492971315424849426347361658729483347691713671479838423864607130831057382466149859047239983689496750928935638397651900824303547655707578866178852778192369733133007238183251930908263464690300560602234414677388756428938),
  (44, 7500927186638523719725625455354572710439471581516632161705725812922049774424076117183335227024770979034989541343226910602089901459976427276282865659038539160151098312027441761599897497850633983281368512097087653344544944029786179223784217459865452618921911984590870640476102135871635618482753895976985757941036270573650471550597311070150264901729652364330366139920616254677109715611960063582246804380411843680255309117295934018119511979035348987408460572217284275627369850936075818395914057284185360378987076598637155471316473221218464444230684979597722706630831898224557612889853533826965770934838586769211946444558277508994153271120664802594127030794538674194095730680435414771144110268117999898557549287063091781359217406423635320636092677850637231992318125162987035085756003221256278860938193968848167174746900080280590858531114411481953569354557479624819023622344694492794693159889050446117602293151628448888731488717306429725441819316267262943817440752133354729799966969925167152839990364742527595957594557780280243690038350891100277052743),
  (45, 1626504310281814049280624452581348930860846879477693492528896272772120240646436590950306805036240974077023767785915879310039992223833452457962713451893526325364395994369765464834034172580042316885064986829847036826116577387091852047444713563687509386548242681609202797710318299183424337453004117327384313463512679922391668935189780288617773625188793996320643764798041230467847669441542482061755759735994798644642441120012170960908603783099557463239740064880929246487969933483183294577327743460875883268354209594586970376667348336886310865276531345806198001920780207131192181075958220646920167927430869458027129549385204979809198363132663232117955500141779051036364264444817895082469240523801066983324065241056151800183020215579130237288539701250646402248893282389385960130235879920561736171610898494592509364728698388902168657536796292325184272897106989054424158170024033920311829261646896189063452354483428108731265099964698814772923803483325738316714048243833900684145579283941900051235000066191833766996062865649417919794959),
  (46, 352691901352915953945375755255177356393305383994527238509767763964424297417003030144699895137761485359656930191157947057324773436092193771794826304641886535067751746580663913500431737953585304131239100420766935624237711560591454078497422074526159344523548898690780582581720303850288306606442333220583317798452362693694878309295165723759998458041044980335217061113220398647552832075334470336767675954881656381963501375025672922656787644195502835820226389568474841925248998775512967995628310561032260568854264412899021213016163672453949715441956109674783542158664115089322822476836934613409216178704240528954469261616095020289143949542838543765865634342294448217333968110528177558978002899674372145506493765279474058045208300033166372803804490611752505895244566519877648407554645062336552563733396226273045725565255365819311929287873721262012593295685863225926075755845030346201879181790415457022099037486412280601801226196842883339017545406147665783650538662875997591871433517315387183706152390960567708101375),
  (47, 76477865132974952484402573815644742221653388010614416173976470792841260458212321319640695539746253816548589433557039975457096073119570931619650097358219560574047690572382336714918769958181884766628606320921662969486154499546449860670120347458503026765050464170412848946753283262473041118454954723966237150583769507358393294455373766666000928946875424344515163246738483859753181958744589753838062975505707640128275831095381950886860531112233708870136729672501809913599894723411289368464346466876810081248761313697316624175543067978686693319247933068964251774884687000744205723938081685029225317662727317635027533726439633523246298419452949053305434290986738755423713155278790543569054066242588809521836367714746408301705694679134785028224644537852807632053206574166431336742859941423620086782203937977490667112318452515205873920994588309707518758013951524599338005096583706164113391570170869512721724163217446782543555911912112516291764802236290875996032919781173313678322772479834547284512),
  (48, 16583493504844968188467708958247567061074747892787790244208782200894243202699097826051162364912047431849798125942781452134901965703850541513316187259796125132373790348852937290602263098726869916802080036382246929748885188710850443833082176024118682310089530305703449088245443151469392735780649142078551046775179450678994314468044704056059858248651039456597765100651364056340626200314659167795662933099434912604617374851556083795203257373498129554663124396146055559208934131703687375567489691970956005418603931969922385670736598937712820915157660644293512585877461794158045870845790821330602420462149594752366277236811881401245780419048441291409514436588490596507206540591448876442103114403735008531645050624767714626244424576156054497538786919513108030677097759614708605952596999909769261637006916668232410850678685233738441388441257369936181438699706086074434470762007161411893307371509659950211340910723774397721360534828946051880821915323034871818590778325627894453576),
  (49, 3595971937070442689254131568272580093174068567524255986824131592153689765217634336492418499935528572566167777800030209346757731895385819746907311216832188239265108088799506079448309520597460236460837981926698582374218755596902627155608910794726757054661522925348270101288715455598000848125154745304560369327103586590473028726063084076128339381492323033803128165299106949386907377233681538348640369852363296212672483506545591965482901280614191038679148924585503694398917450295279897212153495024962648001980183976776426180848913572653628418675531510558743079732597599001504701270176646993740471367193031997218081985323214956112259212666239875196081019273194015355057308329214635460294524810910877089337048094925613163657314666650604486018577191299677860990613268567079607304775478704386955125369658267324389500790245871696804862170218241168202450352923774084429443894357112828187952708402185801526395661088079524177976314110982577481056202871460064644252),
  (50, 779752117273734290821365401140055213445135879186081926390016526811889187598467047395836887756625536197135929675888881425334509404872102742480203395393132070106784809454613169317342891979470420981924749393164408514742483205261535137243927977487045841384786466579691511264926120212944402545041725870202177901199359182485539148054112279601065055865194935080446528075024780118303683109503296162107138696897830592145894009444425329815728492922850649855146280710495056289068550036662118403140444289532603675624864013415215478388619064500601627321023358189631789420962262995869473846281589032305898506914618320654863409668721237839679551824849617600402287516152272942746817194825892631962371324809650854003289395870649009623452676729661061237621081145158120889335129631881378961207310292948219919492712477989450164515591817446497470437501495082961658085515499308794390951488835099940236595769559941810774371270531177461661235070770280624290),
  (51, 169081787909670909404500271822254824223289550348438699257819944754266484070125899189255923801836769381595970743162260044192609746827095927216576935725432229579849950838964645325186189821485493115364302479350777323252413455811908934287340239480688644978216360823613465363071135891018540927645490192069398654484344951611611301991327810208994098827845810943559437260136810494948991148161703549737694098738416663499730199788661271772919361194108190716511700888168333569637321809564684277523705790560916759721090348190670077459545497209562703616555264913814243059579194750115081495218178748104502406015774054310449526606050214652522083677844792821049323648690599904827218377803135730330120279739026891053831985635390595102189377495741866539352968571092465223355788542018502493574515085633940266760662532344975177496560811024576473826686091799499633926896871450866240926306862203666940042290414999444178183996505596404110),
  (52, 36663768355879699504325474435400151036591731903901340503670381752133632025208334909717680252506906923761404098561587666092825104297930609630178281031309696105607800100675807034011453026017034004731353187018036862617824527235114002912497268343275168004499338648460190254794837379054912916914681077337167126839402526396314549234106920248351886890310309674763499817273245620210165890659724036700635142940325014497898473266141535629209910258216749848531310624281286791686312703827674297726592577916308055384616734733885291520285684766176062443915788595617812366230001734565656787235613058201159695185679569951097981167082136623583628459608254288530405726201461757375478309143863848785657880965327558689498192404203605867996523288061325082284600986877664529161012166231695063520172521912431398887785751160644466363444313411195298431554909297806411525488767965641942547022428997567871066031668787909067),
  (53, 7950187460590012255499746924485395815167890362618863883425061398437866175634364789023785286039301071871440028992722615845458114366755858712059406348512969494762359762847837617527062746797672409433242311584029272847698486050103812015601015117980335463533835601706500018745869656061325973976434057516575353545526077882898480406866554151575251376514242267332429231975246314716919435814761616261994746206924178298435492840668058939956172868201236856298171061841105366895271488500150406233430371290809315705491977229737480676198159743414345402777366104707729404919069531360372547526065366033292517687145447261023466498434553323784350121324857347553255371556775822382077316008127926522920810136615526980834583011947172490916944174903009167106254006007799817547669213022034670604959023937580392611638829164000924986723953058871132263093365990616378333872253461011984711402082004942724),
  (54, 1723922103287741390445269386231867814351901942392371993735786077669463222326324842399100072211919119048462277922532820943736858162836791780621357264995842491893340093641364015121234219234735266067344655054632426239671140714755080661547312489904869506166723945931250647440820644114919829142972537516158279869173000348649990823091853193158446654086223564816184136762809535200455165515268936840908969345937803532473033090418073495173665570086337127088728810091213067946376833707201769987406497591358272435363651975437588297188662130489292634500819632217160417327146634557335934082472534264559880731171393633421067926111304205917563542729876703298356129796553176809950942872088064150526776004609377647981909507793736735495951459825301089588295802182763619653827092442027618735372603636530510748114860673644792268040279348647533214334227546967743434727294571949100),
  (55, 373816017916069876304942717347059225007014046691236242177427255956734782195177776198738865013659860449821076345867668074844817465005403683239982131270807046065967875033137096832720613717073834156780926046796815620935575922919789008370595633770955908050102482538780718962904809964454976528295653035168595725289391064549257118588402594124452753976699653116743759198155180133401267200457121240847621091389290346630471048598602689727753609562831543514181618618569698944257168270262416470880693363304904486618685828009728042187112461212232684292839154889711617258107251242183082236030143275989153727590487756848792910099601292944543392106297005115556157087561305230079214206746401763424288159422245209085139227388059894744382362770209676083110987266252826026161348438730732192259297433730511789957596120374290696658045295467217340095051742999051),
  (56, 81058427746896641488663606273067763925255496868291497391628024275924191650267744504535942484952795582005367957831446557634571294868578517820248312763680215473597248566447960542959327461310109476722177502796975435480138214271228757209378186088008383051651730064169156609381847385583384097907392167085749071751838861809361602726064484230559056533280342769965760192787338928882240091433096202654238783649989665759226812581394699580607617332083118368064218871896543700822024869125059204182452596292246308218211987964536346487147367318390916829547931546550040738100277681751533754895429612602799604008905998188930142067268592302629417620404639883676371310654167650015067765621445998144343753575434444668888349536007141874364449753151712831832083694602942109619887288879460567787998200541705935251056772063766795916788025255489),
  (57, 17576963967173864717188890064439299640889396101407238267072805451242203886695723785470493841177402520042241663357855061895311413512528924159188657486210536384661091751311345221104874810433821629050722010760715460796306097205774720061632499927134874499650376120618200038539348973794934923871476180597577457811906157659601649662379292981826932490600934684580138351879076926411144679218032692093308798035342722371764802321934383085604483510704101839299785899994422910464726802102857042892892110371386766457898530986479239399901939056620992948316017969610253330391222118352857367566459955853747632011284064049447104590956804604187459431972085651565228959294714486197640807589087575237522028132737031792692481029601226423587600117141963565348912196895947400537310171019890524432403723798549643697822814328683),
  (58, 3811348956120542566396017959239181799131901650534925132935818179193286568556074960572805957108596757395280954547119816830373416941812934670194756104599295842692150931089896400932910933142052982546418875255511944158532314395534678917839684900655785002077829855818214203574251584248774945387851903406699685173014788140707784394547650907079275519605031934102028415842291042865297776386256067843635263224372711056675232978108276465368028804892521420252903047016130509105680489127035169697860367889617490769991319792389062820273476081126086681690814589511754271135233259961162357171533856232961378580026954316964748176200599977193411818507269412453029556285887048117408353837187172368255112789495785251208291922075056658333182349978859196949011866079320553197577602017217925705885223691307),
  (59, 827042115337329993106364099279818483197841368350395320675355647618653482612705984393669138987569042099790809816774995198123757228793166999972962795033444646719666708234604764466480117562785370665794985630056976328775249788110551417923448354329913713662092390360276874295271234542755372788278637174088710060837571676963135091175732584242138531704428163046582974759500696264177358048432346680945798923174497765816111279441960215422253171980493163863675044647492760197034687865685551620209455720516183807647093668291923315112998875549934315048041718776833337829078052628887636200784397599521578799446627372543566706209161695442418212077633688067733179203723111092833422018790195355248087283862436191738464611810319659619772188433334889567476043315726458643423559930437),
  (60, 179214548142479984834354752803151737133061463765462956302115987226890376770775747938753686620467946167443005034177125939851540781324608461353037463266069908816464154632484322779090447248617033184110265941214057774267721204936566819233923273659561178757265900902472854534574597736394190576968865840639094923679718279339010121623336067901055633218814547508605429774353749987281492053848939095368345029323110850503783233795133677156208019976627975185587301880888710836585506620547703624681296049017176724760964952092107293464233617755791202467214778654525844441328487544590840151485257452439002470999623655956188705814685498093311102541474615197057367411901231273198105123714807811707821065987245584438653192986805935125296550517876157426726946319785),
  (61, 38857515194360337642219465078868089599303262817432546689963419771964975527862867762145044790818921898996836522942243283521705403646658601173326889424588237774276293587653535280789578783959015257305757496381172087022451664218839990477552350670477630243580898952921809812997665365579438502782420367318949076609974764147686151083987512076256868256484918819596944086548683330402879847333215039952549551470385707666345451924174026762059711484024993917198490973543557040940160463398996772798996363963273790686267440268501632971859052899856562262106779366131030732269617318549668438282433559698903608063090590356924656265866277030324874015391936375110154743320628744201268509248657372475387473240095424148928273168789435741954393325206),
  (62, 8426469747991033934781969822045808428243672303114973672434553190828767946656910484879832736068171130415078081751986751697322221338773217320471753691914583989934477671807330925413000125115922246840484463104237441618836639854848130000050451172715095685418108476854973674489082057039700955407618560639173901563460500518766428911443652936821152336088787093151486759894535115691658509520461420696975021975766257383305070895281640366622838639932762331754650522968361800920040301889498078328559669436190938406433087759953427782376684548161309287742571022207814245369551879195500014977619794773125270486149659763448662794850734586927608357667023824265678146664174547709426520065796913340644382364025041472444783060974),
  (63, 1827174634224674503354911543219833536396699505859189582376249388755557061231618985492667066399972599573386318384411642300692105356149863131436287639889128682371341485467154257608016018532787577949893004189159444882861874633213446400982574377864226255532826229157519834434074605099430783844046967691063846376879695119682015887398980915762751006887440909781967016512351853487845333537193014764046945414325013389038400096737160674814951883274674817492455637974201991298923971897743127934118257131865678496466969418932241460616578676843997159521359146802210147367201026771679464973733071491593843434375295117763943281915074663749360299206737738555701618046509894498373559072386209467063344885488),
  (64, 396205294140208848796322393854174259597163787879243957987739796763776098909889906456338523251297634579741080228703970588150246778936820330699855637900415211533390403720262892031427725308365990784978882580570128827759814388216575129992015684164735569283386821639600897003756601223168810078775758363893567370750604123151209276203341070193729233202611957639024120482510968494813455145226596836493286133670485216407991079529586167346147221417747514508280154793715740403696391179319850835658790789273571912719783083298837150731480988948276630248630637757106962974535550574566079496417028322920267540219927905541266785021846411436328991300246410268576999187421616862743932509212),
  (65, 85913338419875380018175458859340674360377810291492989851994137543588622271942092941367727256554796790297703005804282716788124722443628908457699898395284546469394850280454948997101028997967834645458775818873546514371186144023272745500499920794524108907259340601475165122864128906483371820972482029508615504541585578287967718052597546654240745155232588071347384696965307510888752910520706951584294418557007864716132939513874762601629042876791579327181665833200639155193999373507110968602098409877681921249962999005612626557510677065513260952452069762353421263967876039244968559755285745756663538015055784080255590386838471059381836922486689575277773130230),
  (66, 18629488900088996405652083697851094144256890316579397275050418309184571101561399831623612102859907001463089994806683015461120018509136825807417040321922026405014920271900361549147771687273494706254475236199362013162739385661280658344565448575453880778278541626521522278385130951310591051671274983883908352633136795879433868326401772294972756420957872766191526994143239371657857041390236807697211296873912611365063907004468555134244364594452280376534087674690120699882058211797158998305554373716063559712935616071603440232511969004991632019685847354721102839401420083009207377414490027525762626505040500910010875928610552478351030902641),
  (67, 4039625758913878014003498981116040583396923717545249439542396541165927066349162490956590325207386830000399578968208834189508679396211252945885933417363869339033917911315743499238446634472715751506892326827687741771029305436916218183542688474074410207906236175008140450602784556263536827815169240975986202856449309324353250197316154567375697535166313392418113494292933217664715115294952646595434608728885485262185052557185810264953254158293512523228238789145038078817585355763852706488840572788183575831557525565276324992232890434874210751630249217240372429587623903271139845710444982737965406803613808646880234650790),
  (68, 875956288041077369162466939811436816986945476161808275070743707115550727250024086694442839596609660428824185713137434637096805937434204861188174361693163872493016147464690838729500325918881635724473687022367480959348108962179252728727828684265839788882964288145955758836740116817128146635563605365681911357712420636409261825653271491669993181767157145982863779274286845180961484985855386607017089318014561782261491950487341346727613141122391266346663655811367922459952413205747965683287250746797204372416146634179776255433536639252301716508906755661374761512034010019651239576211878018306366813890),
  (69, 189942290361578823969150198269818216925342678478969564481917612720357251133935996746389669191600248666661951850592039441902519426386081341966512796887606452111734825231148592867033790952352579162342818963369831809960292699996642439630121563579927146641974690876262032741640665805301959596205971284614765314225629899117660335202169739325743259144110397751970891042019081883218493533181808037531111763761432791665801094337159720565444458449935689612184894658415255079925427876888703000723426971253603177592990819704966446208959777820646888447090024569303343250912866366103285982558),
  (70, 41187277430141951157071870243981032568915076078511092023728699191602429161092364118914253301398647745478969039976809049504504737477991274393556834509549325116587760704348389469869550983186438315007121656463859570312316840570439673898808047398097174181981637262947264125674972004093252559594887848967288091907260780530221739754839578221057476082018224532100283990376136161032613139784753155529795601590059156706176534477986567002106041486867314005891120613774474818094042211390676198274272300101847208827235896358884319707276096675257006387131403175725183476890),
  (71, 8931101088205068336783542808921121475561537082900524190297531782618112022534667962364082611240640286421485133597474733945414203680242852567670863721492104608856430087423155270922617017541684809282708748687477990714463154477193588235818531105426845183159720326113509534233474608283516902744910436849775440747121174663375640779372081497914784895649233726973190233653437997649959665088574058739992555877384545216513137549809906926176083473352035147861056716063044357412352785085718053008218319214276220709526208802881135762314491301954329462909),
  (72, 1936611368684812048704986825625885774525651635468401085535541139335840464419177265191387745384319193739544372619974693377841534566025560567657929482645311321063799293589620187721213934723963198452640303034643755524709703549961669697369265361872312701748389040058960092501315372542706712827557246638696131792472229243552862083368397048341283520846921363528841489037483216494283312580239876095498144842700676553102335520622114850910336652818587995470046145382673416992282167590826435931360405580585496717265685308922787624014),
  (73, 419956239735866844975074585417674391658287438970291800316253647234374535021760135300705988530087893898248895330566559752734429162086975190396758512878937859058756847682886265392459035894827943063008964486283393253826196106522852140597464127551597630601220881657748041273955338191663239099881246672882391307237774854061285030084242766394955817365381284459505083118804422533962131163214038697454544269724291964972107955317593993370489500817364097962212071913452869861908588546998054441090167976113869749296),
  (74, 91059028945088560040907807337551720561172161364397879167238532323654804117113418683681414262770576375064996487727366853002693475743912688813159729122595626996393305489954183849708598634414210275516336939144003757019488570365817955965760112030472603778053313840442956169033092754554294935047533746509019896394242919806911173215737115653903027639964451275633081799685503981825148337339952096095413747538783678404661596859570536050698502626383557810958050439415765785974140080521181752360),
  (75, 19748596560486224853817806768638314614998938725150111010938901202313226262326348751085729859540429457703266300607747064373224934275762122210483332108990481956046527090374321045353659812261981823514046272062050971022714354712871574211564082907107894065128475556054858298306728846357946547908478590336567801664357210935231646781739466885047333349951101545846249801054833195500837911305364079627423718105697663542997058966994246999877969646297480211163428628245818153375),
  (76, 4281574964652588350764564530672432780982517604654698254076565190257601481880999725513410636437652612891911508857090457046687303604902826454377803735306039699888780831446250160994140312943251720242566588465726627466873260052753618861981668329728641724789437861012060469018880416257742863372824854401155710272423744265303810806408339551859167201737559574322052249797746188345400653055695410082749124266864210495475385083740149261189214801316904728643),
  (77, 930298317620672767804453151614875166339414675074733320393387347514973318689483487231185081910106076476306191808892903008807789082364832856972406317504731022902187851180250469851970123235395420413383851007526383090445885919310610156071901212678149469193058224145341192068188493699041320743379307625401595292784939130689114417224048172265879598305457812596383340379318948069587001330066278701293670498120674836522981674367960847957),
  (78, 201318687342849086498020755738587219242481875920055078844241613461380702114961212249035817118812665535863610991083041713973387011510708432309467642934696971080633905012551969536746347149323584833451191223824860071640505235056783556191010544857691315750856271233802711624770587128367370804694094107197666526424458979462901904362806576839766990800691975536208221303080984362939413121553163598071524288626199888261),
  (79, 43544553468483566313573501279935575943449378651343676911367683084714447405982535330337520059773238794895723036097035638428903374943796818143078776462238675005144225462489607031492199794069475689383005803620864794271023509434219772372251256219093157483940011837146417411076664756048378157347148932982564383784313163750219501043143433736669617727372057966299893134225478360346160676322996491666),
  (80, 9465592539447702192199370060679214549370443771691845470637745409656415027295198228673773673638538955270269480691723542282196904123563758365758632270951532068322115343338382021848859993190036026825553055193963524809700726501718243534538934397891993128089752886409268593319574359141925341973163744262041930745122604035595739538638816602210113877103236995938010729562355978062),
  (81, 2052634964488063928577660129479330834355674691607473477500003895675621013004857370177611895986431162731025298634022439111476949274520408465832963183804782619423977305630499117143433083465278506958645888777978631791957544712096018975828932527493708736343463107547892559654042584265493674913108095261243787555118893088150049532553258876116872603198742186232),
  (82, 445086469815449830054417027360513649937242166459447357654783842686299393970985103695494814767887422527027050935456186908466095441815825824592547600619286423225860665903308313251672496029420258482454485192998007988177862993968303791532691807346349914793732059019478638856102314943665674645155015094140738088072730444759589446364118246522),
  (83, 96512915280967032590787798660741881978048776431218631109126528145710114457464596560336533984989126878759094467863699651613497347944627094430726854958269048209532750979362116886990274523237091245891120461839614686997038381463189901107356974804265497556365971707433020920867309397023514893446325553779298746936334265637),
  (84, 20927929101315046326836762671902140622965585563358379285620140853937131751498200725607625766411852057042973056200584401061692739039154592191811676488197011958421205120651918089105230320444138025241701931265748129666096137719478050437122482881039107644182315391700877329662831521411401204025944707677),
  (85, 4538015467766669487463130214532013342831522467793559520433021207470798295175846519595100348850354996448185678961517350764226305660405807274504609572582586662708944894301367312203956191132721277115932689102761667084104139494067588246805397963496588332469494214623034047460236395903),
  (86, 984029872840064271830367618986013018352723131034614082116426427926963097935651007207560226630260327815594630807675630660194814127993768761834219352794865614538130878602947905234819708874320302291077456814943975767626720188672358150886737970396942858213787713160),
  (87, 213376461852155308037726533483906152703526955751599420251630212938184452780654113690264945862131875037495955405691391524885608673545634246966889447988633707080317333461317589095657422242895972009935021465560601020664626325570902396332922166230),
  (88, 46268409316405852572853708098057492258495905725449122608621225571904445309083584539444232219660945593802906079559581144226765205138528849731833725811602320189150710654084099537517789397565756756020655379530148469687526053590),
  (89, 10032913020226254208297846996682137887077780835499743261423317126017388065986625028212491296515784763038534330751253947971284943228670288052419842444399629949844020448346995582281397123520390704123500248650),
  (90, 2175558158111157235097001703614730396160769568951148364093788556281375786939145937395947943197835447002260368641514284038951807474314178293181268441586303465000485906508830194771086116016),
  (91, 471754517805287839456642846196329444794828139618949680220208753775627169553183211715585508158632834491373942061388200988129118407039310118323170170246193159697015176971),
  (92, 102293456496754559184028522586232407996762990479528085686235958320178478514632181722789643069460457727707098551303662873785088826309045012436765008855),
  (93, 22184967229149771021152111133058448363314933864843221685462702423118810157453742413930584737565501598114935290279178340788245968991),
  (94, 4809815209520828778697515620109939935127521533447104458827140700876321116685278225647194930334130300590165819830),
  (95, 1044512091561663411509552090073972970272658912596484036167694306089092520054892168792309471520),
  (96, 226156424291632791912474241522938053106096027494339329853016156750103061641),
  (97, 48777439168416512073074741393028663543823166891134982441),
  (98, 10633823966280159962110878520097547182),
  (99, 2305845862624089614)], [
  ]⟩

theorem testPLow1_ok : testPPlate.lowOk (1940983139690927 / 40000000000000) 871409880000000000000 ⟨7436023171671920000000, 3187875529128080000000, 7410497386071920000000, 19144339200000000000, 19144339200000000000, 13052566291672320000000, -42284797121002348353969, -42284797121002348353969, 0⟩ testPLow1 0 = true := by decide +kernel

def testPVec1 : List ℕ := [
  10558947289237836025458681769043569772626429965943843113079372690792978154799280257384986243093954366925801834650887297692679145537198291717699177213052322482442021881215137020706271221830337817474626762343091639881496399935973342052713203893200253186986589977954572414031294177569383436733584916621981004204586843034593757431970900961133345178348908756303005945773074811156079622390100990856693554535780369143979274061551865421763731911880029062278205664213268514278807467966831025452755070336729459762523524554723864710938275216481193504677476531806753640919630238492394124951497275739466594723714510037766607010001867404139341549850585918921471442464103736827792084288998822119801816920019482919618743498553214083307010710803817482841305719889800929997076768102870035091932979111546231635318644225544091882522697146611393911682509751894730329888044552294078917553360737520644614278614707660284048616270315573761634938598389070906305229481846144896560897770954414597917020455803825911473675525118856787005915390684318034598295595357490290819479305879994525473814673775628906892257964432185183443732730054716267968721832549535541182755060441115253547618698233348307488464650290127949052876948754777566249391800787686274790745735825273073587382389558876305241407488]

theorem testPHigh1_ok : testPPlate.highOk (9704915698454637 / 200000000000000) 4357049400000000000000 ⟨37180115858359600000000, 15939377645640400000000, 37052486930359600000000, 95721696000000000000, 95721696000000000000, 65262831458361600000000, -211423985605011785340339, -211423985605011785340339, 0⟩ 401 42 0 testPVec1 = true := by
  decide +kernel

theorem testP_brackets : testPPlate.Brackets 0 [((1940983139690927 / 40000000000000), (9704915698454637 / 200000000000000))] :=
  .cons (IntPlate.low testPLow1_ok) (IntPlate.high testPHigh1_ok rfl) (.nil _ _)

end Composipy
