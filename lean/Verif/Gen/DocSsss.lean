import Verif.Lemmas.DocPlates

/-!
Generated by tools/gen_cert.py; the certificates are checked here.
-/

set_option maxRecDepth 100000

namespace Composipy

def ssssZero : Cert := ⟨322, 284, 28, 2 ^ 256, 2188983595904463773761930865078187877015947953971867604884724807739258000000000000000000, 0, [
  (0, 382787603772050499956760420738523670764597100063718275621336297348588216983552029681258964107079343837249478033256635842400368226775212337775231600825764521186542784828595063185931729587395711893170099937188261178080024671884619424960006487401131256531526293523903713389566032064007929984389377072048634312441041392570272816995736741424924568879579768902706530192262304102248259490714641735840036579254533485245952067643144092620269884008483965815979276319777625342331909655956124774215634677617356017758077530845488006161873317149901328293846567882834287418164493329698617237771292052402115326372025487779628864664161858944901070510854922023123287074197354298179933429144966161807037651842739746857475972828068467019393685347601563609265442662081631544772288396453880492752763271979375854370027764583935046137656088910643912974203607296448935),
  (1, 1425994946703502908187957185277803505825240537761592401643605147855684969512939563696306065123823820938354276244553312072159231553879426187929628792501108799824650529133510079927488154125942706663795187835351605631709190725850386265516305295382184000803255638196705704143516838789015747548600200832071283133480852069594982329740139623824225995241030189777562507213139176749617828021625584869980948341095944815475632957854042722874027818758563138236503446149164979001836041622180224403177807462200651168398889652755238113142098135961528741871900425276948052588980412646329732147902391165334451048584690563729840175829528538321600880065994120166675239819969940462172381773161199932843317544797418581387426770747085952970789183652368441725491485507651323138184610212767919474423256656770495053470413020099651028159896178777107266755112385),
  (2, 5312245140610273585423667674056453652028890467292042082710583313761968052062912150086112563028275299587675468044554114610549925095883854433632004233081299065890351418903135060993910409979308793931436493379442414759506250641682692861245219764792114499223439537721521050272572185058205379354209455967215013256225183865409278607890530019343741220388673952883342307854962262323565140447115841768611030069694042269962369909319547839293574894388139170767281987500716593788564906922526459429362244595157004802635189322825533818479831049061181669428020469349991884625439445101842589559520454854608533117895914968066372344987623264050083386983320564424653617926363232975288657081739808974990304996143528169597707587592293798888300914976613052606424528562893930028805625786886611214764324006512686176669301462746219786365141427345189474),
  (3, 19789655285366898720799638606818220213163236034259356866443840093023956015940428339265706252412033452047688767479934225270710606485172563916564003501390289760717568616953250247962439097387003876013444711936423237470933238572190302838553561884135434401122627920365039446475253198512663615324383437511380811245088219141249651491234190834104050771849877956820064439829298340989519433852716690937557524152412727759471479459090283154834546226410746397351240749604232636531119060058841576055869649756912036643908038088254394879353522822638921203944516429009356039601181522322608920708286225117937231434911046416765269493408383543331244367799322881925235688005062121956251879622273208535943356371210068441573887556712933307370694296590395421817946693374595787924258657287807688390291149127244680862323895925495690617695029239),
  (4, 73722210844482849243281925495036766727131739386392224082514047969221904933230684471375145958408837959347995994537823741401398951132493331717565668752008265855601313028310426503279950832527145281484144598008778830881913149998300905669307566747573891286263718904424605691713292891206829306946633150843459409643293243427759600770600851007193516089953027504757286756594845432749090469831931088186100903451901765625497484123150749627473838092281775020317241077820922612425458733686465826939767427789607596435791877828203214688937347211777573004425707308123028498406602769368404564499136891089768641346301744001372701316781229075134797923412540231945193558160000144172495789360771056741176941717061342207132678391979656427252583109109717975834834078584753046699603447204462566901101892294793810817124716578599999906),
  (5, 274636636840115671021051427330958719280107838609785676309891223792813364167625771728810466671022914198592290261901258458947386410580923153897992032587559021471445683495366672066151912631568108802602233730289261158115838281803954041262371714217863571965186740847023597701315927845265080433140073533518088644904245597972570362577590536352967903353098882379968787568043341609652485509915234628185118285904404437840906049003162791997297970375834796205333408155767061646589165281571843995242718040185438786823957183450432666326833471465946022867863318165584971193087080975118135725005541145162554949474967836322649796523064125306680156263206193436431374440243790897036710915602565646308252912262618054427775407904198858223641274397632104141603874028304854291319767620063287089767162219157457820268131283307),
  (6, 1023101198822690811086637628566319939792557949609256074986946671429326251773632212463060269769366510952235349498321333747161129156429034299768477799697067668555102063325668394812017353741705822954335189351026941679849618233010001634293689259208230569828997332032857826729550688882414551202729618301682504433781823508339264849489892037037640449975054272934678150594402038497977339138989978171735156229191619993268542436469519010493852521669679581919132637443826213440302000352260475020837496004276711180415123693291783442242436403635308501095724928501446055503429909141226647392208675424273216282028397475655131700898703007734193505839354965560673621364351021503431856053062886774095988871999190674282997740031588779463792266639908561971534396312236329147146567404087149217395645687784652313136),
  (7, 3811348970318923931891611324870288147749595156346470396917114672919088049879790143903569392000759061247987112024133405637596283690739550813170067219797773914616935191026584784731333530477083559909221490290116301476395198080725973972282146137983465827364464596036291967069918993422443237910902568331668169922313926772547009771652117509535105712618880990649311608379338026024391214777184260415322576436385444615735821382106632984219428517950149388396777162324074848826183452252032304409115653921141161747325121929435766572410639233930854948006285529346733053977269675202144628155522139023091034091594037367257439053871168462696607542659068189939381251449314045162428096737647430243840866203516440054800821544425243787266280248742191176742063856505949656064332789715266812650492533312574),
  (8, 14198381343181892975761038530134738042017799453237915027577857199754893965571336984275167405608143885612439781517287364742145999113990183223672461583457044939014819230983349624020358661104304939170261808820502092973870031836353145436503537513254083049910011127726331230513449733787936113442862660928324497946776176886808163567081531545278078737180242153312301169705203694262846757877027231058607014385612533176624235520982665174924733156338216422416728248043767642463062966380716685084229936088426655599645023693863677239858922369960228140650935044917726229644614869399566690085429420936149858340310489041087789772914419589739185112443209105928948407300162583743202765268739752016645212212071446690167176309224059941629195895939501600105270123409335263299665517213520778183718),
  (9, 52893092271618146359030300863589115597373990167818646980739597975294642022145304770302651098400890401052086731483367699169166382826828149049253991184596139710451734181431493252591634769381228607782206717209898281745128452168230509148923819934033166803084355323487264031594431898697972720276052731753604478935808602298826588567650063132040501134209164420573692981481761940956422883197166484377093825545265522261412208154279592570565079873828030634858190741772723337429032027292572849670124063442997400544235145851302967690390950709231995715587242926117970092179031888913997212103841731847166314685791945663237188664382522873898958210683483689348749018647436201428022319903275375526844769961692978036298476611776133352469751871088108864121360802009416313565124997539737),
  (10, 197042123495109924521410095928568823625795506566087331551088385191912360571866127737993937352303007248983110232216744494323307211797044236396454241814449949974014364858834047811447213476081299065732235898114361918513210312158728052485450431458775575470493567449924588321128606418885188997820216163074986930697443344812194215385802325353177249195050178722860465230602290433653107991516598045163131609231469702594397059053433809504838089087603352792409511489231456086460539810027228345378387691443526255861450211854401142081396435558127699060028497865307722206638098836307416644323828786036518058744227239108446198368309540744376310029611175238058314821502308191463949761868705008584913901053521166138158427594590709630866808723245093826849688373582544819333101),
  (11, 734039111044667380010374247761699645317329118274477614280165676742465647205211698032893007070954916063633226723286302739096087261278347061561250097358412854276651013116665362609353711739485334849850222088822580570404269964094191985150614498029558269197097299433963702325256937812586087725386828791629474351918113771126397756434240659151886586826481590877698604876556585039326534945716149022881312206721701579615484625697439259902148822533804448108591472945540688069061937009927312975410536093152581155630224380296626273738777636771793333639367232454170692422994752102116791377273019181832638582194104968475875270475570425712254878423691014894513329833937495226634364788043631949560491228722403557517308859755598528293401823930285814492618483038165626),
  (12, 2734508779066307023206257252997531165619675510654142552167794394278770861049040027085293110724370613931243221175992126535982218613022368630622513954931545459764640827166532585804737030489315594918467931780303197243825606868021905366892421610763513554621850324548645698745760835009016423394481945006659158885173923414671412693091633391201073627272552217821917288951364569317855476045726442668817248621109534403903033840743174487353956557405638730129232551639709608433859326658508406680358129287914397096396788333018130855146285888432640257001182681279633847093878681068063289324747640824091693052129202870190448409929827128787318362273873233829301803402433417588349774091373078934378462647506440284813788522728903010458284065701412749097379738),
  (13, 10186839025714647111319963831445318332387788260929817528157660343791435886357128721048284734503815375012320358961791271477871457535856845343941874634219502880292537909621494210529092812870873491907372816578683246835416580990038459624694368283314680884114840345638415585256222020868273166546530816728842105288706434572754102547063057836894220215347117791041481510023466139473592155279341279330471113995674875646213147734695474222274197800875798266551040380778998696971706331741913275001385753681483851188277345609034198992908504023719216442451714082030399201774574924860928472088176722842305055751019558508405646011997567516733893376439136360459601082808813339265462710954844223201575608149213371150192085660832523325531636287587344115),
  (14, 37948932594487991598695381847937845931901739019639110297551975934920593672831090990633833164363411720888019945330140260897097950934830476879857013502044613958494878968676530609015721130635118081820654930839997704459043521396959050091707588297555896953176112270498333816439740437523548180410753252837218736442574987459011757921662397075050399509640211813790143676179595014100862074676544530851409737701126193988173549624640850473596833852340186060461745269645359574270319660357663001250578909252641970199063255266370248033556144026518520730376154068950396289918787265260626496740205266839316355920248319761084311019610147457679151042037872686570496161361858056194281378183789358820047395806588627923836750523788589684661144119),
  (15, 141370790431231229002384028762347422286502044721093439674198537822516984018799256498492632673544480356901958381124363321427620764578992414771977862350808881068583126994507501307933483759444646842109616588205090554278506045777198113842709318911864969704956234509119144888370262226177558974961762327094445885876472992669834784871572245191970465744482879058730986196514100448481918297103559121149744049268757714657538707911824767925392626242864360736848766346170665986803616191408272556005540732024646192717190670529043411999077563264688802712992032876773243804830553578405401168266272854852641237096489193992677337804432253470076652518071320656491237626771064390447518064428318081531540411003386103747641045288406092344),
  (16, 526647234079358089724123585083884828859947788421412705161417044038016289542612643906819197064431311029575610090510410522772449123036088104441679501350257102655556526014609267219653292594271327712050142095256934144640363923375301487157901074408981836233125010539290103645511948414808358903831848230564765207009289386383573654560641367703566200065557808543805020119869527422641192855625869516723292036868037523463451262327628166115035341480761337225611952954133502330991900537196939994176998859564869401319529879017533891841257899919717201943809141696367788778063412276151675366370616622606186025433047375963085915630041697108969401643445058676989991314601676302443772302661753107250671783758624242110142877299),
  (17, 1961913831827633417115075830682683098539515541573661212479386642716885691667395248662006844075140770634917952457481661896304969202861518056845961143636171157120006255859916162564058946796772359728999965247723959925176068854985019144259024688634953782830853054446317641606598900313706542938321263456958402719383274713097414577605729429809623216069164041772245200983574319840943630061391888394633817280928230002710194439542395504258737836053898856752890600323462385112882543763950099016160966160802778000476278651877391232617811393592698242577428542955948443380886847618189919460556489864171672360755147663947263922648496929775599389616844921924708193219402095163421071206461029811553715923239760217537),
  (18, 7308698564125721965413823093036871770544035515091051207778553078759035809589159669958080515545385966580055476939237348349038396786382489118151221959427636702060722767784879217162947903561489134017377962349817007501334208454880934746038260641079223837073344940119674956823136286116043265679185328844779739973631779525791907972118740639871445342653236416230707125770637035205803053048567211970261814174021702171851141222431882995489949072202280102392344909864785419039765857229592051279002439452955937026958048738573764873403800256226382989523219776458146978554976853211941865649708404112538084983590913866995320125553813154925688627879159258933363338278436903546019144172398096578302947203165),
  (19, 27227023855320073535344835717368393281638754587959688930878613437559589034278540573858024610375560695603696543496986286152297246405417059057024203089727598063873956977519688074152722595488612107997305550984356580307089568879011775352203326825347631562774423286764602947321296804085535055693929377365036830207823885700821533695305662750718918235585840513060355333909055905864389305826358425631165079008839148776582760118879760787903249246253213512893151657011092289046662009193620636441212023229297821319393227223855154603489075985088012409391121372202994737832787479676679194271590483933533593416968045995177024513064121924103911818564908776893671070104974248944514098833320968302444),
  (20, 101428567824214970824661983986826215988541970357148680578465064754931587853575276486046703943519147841646136878047087364466105574389610659543515008277176313340194363063274652042063782347323790594925379570515292064499443653520240542859596486484064279357993689502643804800962272301634904204658900862056899183272659352797350040661770987915886673009930041832331550209713766746096651077530015394115325274459438865567678362314138983238181227742268581652299367843466978410890953297250747518807115320908613592838605847465188140069642555759459483969968508410622210083680812157615465266155636359391414055681306244207470188136262414929629188366345757334247003172310937427897381570065087),
  (21, 377850859702434282096706271122493654446832725246059449681882056426002039959934638761157929686900779014997694187041697518773770236930290831415038586695404027924665671077648744143783235353692585956027282664609298350287391444743575687928484702423454371683276033038809168342360378435384125279854613773736727175387216183533333395432128366669119959875312653863007123760384140498361277450431009413898841185148708041901004743240886458096082489893201495384477764327998209679422415987156382915026264663766291344359137266244381604650906606754905011776016464913884192889161809622436102025564110934133453791542539460812515207955816235732715054221828945868811809304014412352883513),
  (22, 1407604141914972223701723929950943792040767987244052625007488043703146427720541651402257120933014076258978598516589766438207664478310535965170855025557443603592610623976769835292485488033639587298137257488851615601358530837087242632837909096566790236842915538843010248029084423316210975050384602597865191010338128301883059670453457828530222195955620779693618966835527827237928627594591369630397155727034904941349161146887768227689260935953080743824056198732042893145826513761043438181794903260439387017229299060959295896122551779120484057956648980932529158491606876902934271503542850708229001152855481264232145426879382539291741795022160071025233619693342027),
  (23, 5243734053950653313479289151545404613169908476039963308749675913539329274447789979734484556812845454584727430777958655499695481651688128580044414943298114849599490404042489213095923841124920499690388357225252746050650368769046823057673532875503563273112906287770756512988673237399052735605778554819022085561421718229029179512662905013979934991734476180232655434198586920473286802149327872406809223150362408879248587096554628556986209925736795351618286069562453716581421361303513223225410091654687621127284220424810199405964554957368300808772780289608204383336897929838330893131027717070161014417145706707170696359544626199090528499154245341506233808),
  (24, 19534431598896731858995888946747051973528819069415194201281949555647854784309081657731848049211671406718818212963486669583974337770373108163641448852785359507797250166693662155776932243723126127162532349024909533748963358882989075249707448763786119495007791697124974850522999604787873981914589385764274302683259353166612975072218330420472062255855479925760688593588337355899973341817332395128636364354085374138269084648555276528161487609952980633608711923869218323705544352055744702968606270204814297520456235188282162091582057117223087226443354246202904359623433235825357397318857006459295880795096020875516257920965670379062834369399319547),
  (25, 72771428521337851356699649046164199611279439439681150769002547694920952559668874955668479387505618507857688564671153834402465588489074662937378320294564066483815201247832410617831842019122563776234285343531182161528480644833255839533014032109775094296812235180754120836120097356989510290011505894010841350986452435689315547315724796905051746762497077452260240268640636568220580741983141044463720944031542962603539198258139886755262637403433332434665260549438636770752867537582243291137565686815515891048561046531715644817015791429723071679250122740503759989149263456983824645868697616503107430734906287402218475896337850446545762651),
  (26, 271094696675754529821498874746874718410072622596029753867546274121556254326063673778133390052264997764891715961214728036532050328288505460833677352572098622038272027849526742912202484976956858397402932284516029661627414244537263510871730864456948244187281411814518723026365404415841529098822721413026425917478890620877384791200119802586473785166682626295019391845960585734450396194945867995318399427844824332972220234986328112731941454172552347199378404492194387408503673631931389121172302772042295083011127635898050995893901943271896810064397120287517601498259282185488990983409302986358035396513208305749389357306693619063),
  (27, 1009906443490663654437284450035075539388033086791745401425459512030915373288332200713952593700084826964481606935019523041442224116208052116757919462666282884919166668688978042126456219617116668810706333385840168824894034283374486531584452332768396452766960158253158342191452940529693624305816809991584528347352884954088405219109162753065541338467176061222886185615816376699812508142797403357188267181302194159534265639115028794685548962502518568664400624216231383422724127176136380940445898978437383543560496197443289613815501241736701918113185679701290808852799174797769651497583304337780958026057031010512281098718),
  (28, 3762194676289944553514139540624154878363136525421386217420769900198710610301540049589993781224209170656210209932250987892755210832536414700589774037399451750960821914259262539917440040473329532186338057316244277450792619151527011884691016125561283725377023809601216102537279382268104019269435439320521213154335132595868008385307098484279103159128298190357568645919813525847015448082131231947045124366188530602816455094413645765768460318380799603634937367800459406188856132049007209978571912579419163471583748071738607414934727482344262453620850186885036241057973182656867846902073385858365040145744119251101),
  (29, 14015267328507991707005126553118805879217149784495630180168039724971021005144491976462281425387446473003216869876723691421580354990573282169512562593070610429945669748854870125343799741839354977705843960181788643638762157974865331816267282238458408882383350513140031626618442449761460742238251982683102889654534784326473171737834959067569568208659013267041379127842870956326775493253125764577827759660948097147341398140870797425142768529764293084921381439932525592002836160468825748681809608992794746542539107756389538071081072314678524596158711433195604160350657269200506677842250289808588751124714),
  (30, 52210939409241049390305305097694716897670737596212439910203366447132159043641731055312907045287812028092208764987899703612850438768317111467989394787962028495764992195572220255970208875236492520965054482898818864072718314732854559333128043502052948347155486646344766702832023936708028795722272994276656642306924629966010977109779214984748963825191940267277492485023694598163177070510452884988457986517863730811613178671634889607217797943482952777027089639709642165005827264673780294967221520054768831085251321808158869856374709361843197659130979036699320903752613169568244769246296833760728),
  (31, 194500906054828499966507051504011142617727583632664531134826564964399334205842506346527140756278529867873373497232421128499695803107012478515466283216931032001096726192430482268222454470531987104434722970794211566719108502316678163905173703058065434750246771597963941677412741303178475486367830719574738586933862284969381954393850859603568955528518630610922966805379069910874600928467645691266427409547127972771343749169277878832895575786560154756296695176267427712315232436038359660200146678998303865865669194800435521627584767332404302969699333516126520299110498680288882027414263),
  (32, 724572338368104770654838724076789403772829412045570206399360913650689028970310488144036906794751174255733838294567246468736588221442000860405960244003426402811321341218167849884265864158168387057016502957024468357559697711157344894741359096944373262839571210832976241046745682514763166315527027808686791364422603961459058551680147617580282496599963984355887675304823175220472026819153688310428859094551992515008411596369051720867229928718450016305837350734569435023744129488699812938436128974171765187918787220657186302272462468415964285651465411387816551210433185512406647),
  (33, 2699242302656564007158721700596769913184752360156067484614852494190219897666240066826481024901386999546490007246163660543920800914771858082733900263918289552671169270642727054224408656947942029897185053516270474931447571933015556773442210253982984764602452781098749962921566304600606095734403977118779765385048522838839932295991039062034635460592088571158749420355627728219417361328110052641773394261009531304263492717635279353503709704988299619155038401414357813341269619767663832732419923167392426416698238383685545517132144397345990180382492033541770029713242431),
  (34, 10055461163284495499576336520153171990755022913798941242005126529150530314692259083786908629914324728945232954793288039207163456509902544627837465196543520512696986163566734843792053524210833124433402171419078390792938010793462715067304888490677698607050817043112082202109529956988535614179778014528635106778265288663758379325604411141656781350386171686895803375814882515381206984330773716287804919734309129842983778412602528370468243487191262384028171364675185505197676441894072409792005565034719072768982778508845132112829639819047781483612863179290132935),
  (35, 37459511918144283814640106708381965721976097352053751207907224182600268403784405752222644649126845333521190862332612422135336162559325041725626085685728194239351846887047346099436482504795615093534447891339205009936243242266715440227501569181242751740274425124331653226510748564099053614412913413139616413623669056463168251313190043499234548666101726251343614211800876000518274977145221296347390279143199064864043205240911263048938258292780133013719189954205272949183655949574594297574826399482561472386867917306979353126398339796189846157326766569),
  (36, 139547556333781345988214413480393460847348337441883054405105204070360468342097125024432855282451381286685134702669875406232983479497302479019858262262225874659984733488587089253352889808996077975389542355217228727824461300507162684007530526825448105660126234298263924029619782316574860207904544658552909662631870498313204682230814849516835931339482336631584431357905933065600319127812228982382223244111149514465889563720990138385323591492089544148414060176593964821228582358219642541615993670496158387512567061154733599035824038831088566438),
  (37, 519855157784303076521360924394404369769052928097110444326345637702794627629582304598513451525760372305978591377548409276578513829027498062774010979615993330851140370549958531757268644157785485444916161316096303888687323895249052276360304713351056721538582221376553364539357263705530141995997743858493659201113496178327774585859829787327017580363396321811519160892729546442915695469533999054579461255874732341931515308108687572320451722081507011101175461311111352921858744397869530584317139745671692881876223483263670950671315509860),
  (38, 1936611375899251835500303374210016316805232048396432564878261229778806223085456731164878053686620191879490730827854608284601993221892036731444340123295759152066485474072242273976167478578754563133793886284076561197394268522902682157322788951483132036521768772591343788503182172717079324772295691552192811814927485301449441565891278327778925284785202279710697070462662922917952059349158226688536139816143081194867482885442638452769313066259087349249050244499863353550917304919197033915173192477327147173191537340908785148878),
  (39, 7214439570528461916373310142047764050980031670616688448482234886954747971465649944412999055112228512315045039459521354305006538413062828523830846411346491992721279986471843263324914513466718410530097518863921558687822839612148113998554406990957967165016428070273681466760998009342747537571156873718098192094817269782825314096213638859303286705766053336694090181601983609269369625977989261726567431057057330142990134072653681428965879345758857983810843508571480987102254274169520996018063488062433584843286905125306),
  (40, 26875881740929417000611536733984068225994824136110724689372758891264900458848662467349317130119459749441761670483355798963481703449274705811704868120500788111537698485554162112747706620346680162512140005329310050406680110792651199467079142757115175936658955889358728859090321122886329897483154373212666941119292140438611831907911605738983612993884052964647966329425912672828897584617231764391131270507187639896975462254397274532655843935897282392324669737875336196737333243646879508001797103350004025563252),
  (41, 100120461512094054373396697394490496166031152517015951459753360194209592263581836474498052634743823667771226430249794568730450061892251319481823102088648036983959375182892248379855621003150360100441161696917200164329503295536605168235123371914865351754385771761621004345205677517905245525776819183693770383743130440401260600970374332798723554058867450653388374958808714597001133566536159541438177227189023749021655401649563555183168209522204714114168807547115921214840711980267583903629869302267858),
  (42, 372977783948533439537125443646648884438094319839089928044950068720465869693390415886409776787250577165824273341334590944388695291773421017385360235098430611288771083893632537525636852718837180638461305352658596010295824026408837471875854655513813558460326393760734287532322745699429274950589139097895846890848886308429268152931403726791460574167742052665156590899103258251174938525459839116555924450091053803420530560588017694838088748821083037120835792488795873940495387217973839890036714),
  (43, 1389450520085295437042137397999498562656694352027363807130418973864860347261244117790497007918546263746262614955509420277136174186220098353235738791917665641249220981405125151284876935951493108783960673458672076862309796813144912637342228548720075536236861631126655404568368770420959281506652849429650850902187305265668689094570191088274178286257737995111600226128438538698771561843769543861335295637320249579282561010675018659557955968983940672631941050819161935000057810334261366),
  (44, 5176106542666611958452080927787343273523056328398599502185057751330958110322222552413109719449826567419851627035101578671992473999768865660603493852136646333810114186837783664383470010538954321377649723643672014012947204558704502265043320576882548751408822424208315012060798339393525408095220933388293916208400815811729794917928593972493151275754915833173964110028594487079580381744398619638763329565141314417010174484147219398997830213939990725438468490163069079145252660),
  (45, 19282499487201168978408280491036710416984022887045888238344556656967692488142186971057615129090199498161120813470712224664110331191763676986305359070695754207030192893950633228843258595307767018092823096592150574032472266303522081855306841150050839692003176416505167070799115196860927007872537453197934605994589252215785227495565755740237051947399387037384363207935200489731029181912771124906032922212880434838108408922701117368196645322641507149593965632451925400),
  (46, 71832908269767347642810197513687276903480376627467156344445633355407761365704934936231431100853530683223608186361237073914259050092923779314387373746794204415902423146198442211004475826317507678909054864096659754295186395561485969807448475514679269296021624314437102473089822167716779376254632311602814217488164462331972516531830675823606943177188623813291717744032644768956032378491139858582416250642516919873814962210305246557058830355977444776111985092),
  (47, 267598436287668897371032079732743192104549618912738399000635867399751251063141729445127513635357956153244208854454029697283646852520142206770213959696472668370841762832068211913712503747451189209445239107463026055257943880550608157522668422196986628347287280907776894750155775308979906236052733062053662071547672188368359000909945925389435980654107900634062921815201718674074073532025381377879781195163556422684280728971406466035174937288989616323),
  (48, 996881858586031561236948071914699644239804219129452105613931519537237476792714481968907690179938338528998251305171598686708205317647422714500324185883055866179930360154993477657336583192061513563280393101384344365795684706575509039069244183493987589591196523864442352799867149034839653369104336606012520432619191781990146792139655199269475239234066951595582127551110979918391228482489062978895893748403490420168822044725910886647793860833),
  (49, 3713674316503225122529819875637813077270255309080526626161975858871778386804142899695441913618765895771325079290539125968857633560865885756343024938950271364013540845281421688137048397068697131667409737260694806016639513210257203144890562991185567593172872003166753644609127932674897480391633779215114855042035203886564979125818442379656366700841432869169872902835077009822578643134853245749683258077800810773166972094827113949714),
  (50, 13834514902916644225008114709100920994841513444038207181401460837095150327163687033874034107998869863300030220005697138216956497458334812055288039669593514555208980835965635209627796562483496448257784067862818539014324950287644703329299979111483614256657423238084272610002446263463009400570394565193635181890174277777790809391269083006395034687437348762632381421932929676018664129855128157698994836207480675926728312587063),
  (51, 51537584151762143615663478929925415645694410219930884172772842783835345485506329416172362903510349765002538067615342789648419197802628237180387312299626938122199664364169342170154963272197001707225107878556755807924953268731000033069621233384689114562022671272398254305026846527086671088235562334662755687117777280845193403730897735077810193361231291614484392624751879022478140994333857316350323483473605525570036),
  (52, 191992462246724008082089867181798128953927793428044334697622220885513899469981903970019874471763201758796713249224171967331258430449807187597153243554514479085418869834845511536227114735885272180138648881132907330368551677289272386702757821763897137791173111632060653048031042247379426901240440541038167747292727357366240629165077983595428077233796369660740662644622178875656183730934427711377102483700929),
  (53, 715227656985536247797645133665942136026649897650049384495440141842952485630628685007644523533943548401938596744365221958859392361997244108519355259459337292870191393675328000432084826113886104553430422774450336258721169641309778645295825757126245438958252416770321346639291996090209418496490513120662225112473171799101918626846638265438459784739701575251839984543458409956415308043000896259201088),
  (54, 2664430651759863822898436835653864353994465984185093527067469149679968257487160712066959656177218273335334152512470296053194518388911975435870429275402344505763143171796738124429796688613400506353008476262354408347509338413797043242293360220174683161382520052453478562223351465193891299548488365233171815388438056993019473788305945259310923435399749974855231584017660987419173797247939453),
  (55, 9925777657925575311848658456108958848966698910321190530377687940027199794297890701698670741836612629703669828024046822489820195187679241686348042602213122750292378852681296067424908608335433565185482413251752570158779910608476134824439343696043746325253825684083939808675127971555141061478929168249528317423484658843147291362169596209034179007305609893691265730849625509105469623),
  (56, 36976403213760164796742269607012525401837283402484226687095274913425394889275210893510757673407849131242297614078570558463233195569154058137654751092251240626438962705080882696640813562296103899057555630007202322559164164206306182964743737281670765353481386010520618790202791685031185984112043442455032958976333251491662820435582071318123197682319489165667573363719651843),
  (57, 137747836164236682642527891224804144706281176957625615505623323148652197726998315380445906026485459856083494199794937159328567534932082585524717895316310133704152044506627148611379872747164964149022810087514383245910889032897016612040173604595735719909355170442716731301661978215911998439356559433775508905701290507221546447446958386071844433459783720763091439612),
  (58, 513150677698006715875240168840556655042323681331560500955530522518663663984660151049954541689204350267325242794988228046021662158836898339933149129164070695930274907855553153894300720742099050642648877583433576847473772225982023877056694171148639346062417305242477791852548109827539770684072619193686631672417239278064534686949416872264102361491439810808),
  (59, 1912922091807550751133901304842222841922008590149841367233992961127360787354711782594081494070216317915809950519740400289299496988692731350724148639960338652013457628579529625661789717775889345936216167102091955257388435981189226532411499730212618278057565187627399764347947820391600550467233515919121143686543092075901538036370060773926976392393),
  (60, 7121396218511712128125834954877108363816308584153558470701215242368515238278341618827561562992850393319728210264179393696947941363357632860190464956274115498471915744343122507869711462027918160958383851339111437189765762501754080271291332983851645233588383358919302366376642374152882215079138359266738006569072097302033445479365179508082),
  (61, 26529268244325041511905869521633289799715761490425145626907525717268988494655454275756430453187149625770875113521393144360609772458861867045461826109982706343807202557936592924012419866987539554551860447915002447671076145876072791264812177599524389592770421765831482143403416382704046015019192096000378210593486829456755949287174),
  (62, 98829224879542710219158011170288941973754182233439987782603032701466479468597776415966508226017905199298507661319373942073465130244242636230732894915684443739411963686114361504406731091396351817242900919659533293286045347213657114170175874990800434043773129683620204993671920469124590773252055318151057765169231233532155),
  (63, 368167555391333289554627930876975834950707602747987446984774319416603861335562521426103681259407362589744638176156124845822369802861840172922238762757138192522983616789719449147531193943072460401029912730577157164680009712713366687338960433935482721841645824686249236614969632515308292245678888345876607205108120),
  (64, 1371531012089070997438915575370869440625802344607384076866269518653526760344922702815431264102624006919334636949158233459881424098363498750087682993906933983629997175378872106210047314956228252217555105794139454040895188963464446325190920217000805977292600088603940682785798381693576650772737031833520135),
  (65, 5109351211442697657319612252398261750391187983498761783225328050081120082380819666734944944655003614022890629137542207908704271464183120399371207942261840793040149633809763793972846980370637391878149875247887563281393789368814818892784684034882873948980332710522410607318110453392685684103912140),
  (66, 19033815364918248210149388815521274574244947690783541782441213820714820209521044702781460392802608044356231318041217049121955536115628413378951331886589353000026882159358471067752622737035767691915193200756137496147659893241968914385518385690580701821728904303234554355751726124314655099),
  (67, 70906491948002117909279626517419543321453306505929011719410633036170430114645859267556295927562481613102663294185143164419984825945388047462593974871706589575650357609069710073861705923972786855679849934677542785984771788851274279689991235996160361350156148746176778027783988608),
  (68, 264147823510146986987790469698936486599560115207778248010466496523794462206239534300829134043587164908649511661123384506824163730213248470512093554865136121860067260206849820692817683830868731109070531631205662385063732001587690439941405315169347473775291946565729421481),
  (69, 984025249450868455149306244462214286001068428405820612885482268498641949737739873945998731567289004029166510952347714635779836436981608607941818346359706309150946391368560587754989582347653177665427141817262849982432772036699775535339813903679002808856039165689),
  (70, 3665782282566471238722602521955758446912295074592937961704439625506477834502705775894321881004951987131034431390343734921393368743452240708454319670158593034447288384991587290643323409575039405086288126608820240162864662360486753078044843673816836527637),
  (71, 13656117010950774760624055729265729998306117330445672084801481330687016472786067351642456960520907961747509794935071080924695387139076201698642460832912137448992332167925479605414871206239635269779003074836748317735190441143187066692880559948861),
  (72, 50872913038028342301595384336772384138563735684983359786960450314202100880183727081068341844956678085015218418905975753648181306685521269299835792356261852633008396387502145137381014182776251073525054127455353428549946525204089541006320),
  (73, 189519235769222964833226519186575368766003380075815095421665695288987063249152124365325591207419032989429755670238916815865605507565711619731183440714269775302202274296387657707219410085692795829236360120084039783310387762230584),
  (74, 706003492307283841194216373337430804343169696323212927687261503097450868309376579110773310441995905939834511551537148067687712702048406288484446677916746596572435404426273219145076320810341797604811696867376991745927509),
  (75, 2630225195130692269571410461041054074110092499312759304477399391237388802869569727519057622792490271407754290000571374290910076078014420550355929658441128660070839229724693568948286715690182580854015940428617532),
  (76, 9797766657876103010742509179474823178445272599121084364989336973164782911172462798468881813915994768391091042161401375218166735969826398107710997597589118550339069136937913204185329976926794277968687208),
  (77, 36552722770538806519200818367951280343354980661315504596498912133559442862875268423930732268953447290336539569070990129565299382282926009112125080456009004567536541399017146570900314230700714566),
  (78, 135971326666229252687500913460688840071419203661434593707505265243121231083077896618159585622069752082136943290717398962381362937013756423575377892001683451339604586629361079525432854699),
  (79, 505174886772509135148426515066782945852177337405554572298534470493202614051887829818772685902592445918293244100766230057621337002994348744278320551803091663472831990119145262732),
  (80, 1886981219440323453907397068130389951801057485858020246629705340163330415103185909842195156001458042582117583828536853952206841435792277873675848352210898318591099646731),
  (81, 7029552830160868723537390754910417208208928379119553148028690124324147950577023267187536370480577229531608683751139798930526608301969238637999315326426230928301),
  (82, 26187124570505208731400603968871630995497956531391923134423338306150668765207630761538762275163916823662982491671534953202675034159922260789839941880097),
  (83, 97554642560794107193894747007324626609452201909160095130571733971665985197404592223666104047167354551611916954813587421822207637773918103128806),
  (84, 363419349963219833576280175721686416727731377578534118169016078117626789424213768667576509330325484122009023649312372997647524263699690),
  (85, 1353842629125903566043897757049268323117024977964765124680623209400040270020397264859001070563551759295782134367331520026361224),
  (86, 5043469738305209658531868500424119462707120004733489082971607608198219485069698088735090228772264318370004766238277045),
  (87, 18788340732182169881627730434461369060035586933277539960565206082218136002710989008216268575161728375016034627),
  (88, 69991581759212166962783513244287825293593796503162960565996790193704083147086859001494603255415130628),
  (89, 260740605942149450370330737606549634926951857469085870162299837910045647923574932455016599215),
  (90, 971334333939277264531287915533731644850338958613059798375657042873838547817517180597),
  (91, 3618501696788292342805977978274798186346877907335048720898549782611301098299),
  (92, 13479973383792470697476404971211398862550105057895433993226543296278),
  (93, 50216703697562005157263762942018078245822021953311404711098),
  (94, 187072210276021736785820210666478351363667513461824),
  (95, 697407903602301888309922945649465392849458),
  (96, 2596148438891424380617443540435100),
  (97, 9631130433103894959129376),
  (98, 36028797153677103),
  (99, 134572555)], [
  ]⟩

theorem ssssZero_ok : ssssPlate.lowOk 0 10892623500000 ⟨92950289645899, 39848444114101, 92631217325899, 239304240000, 239304240000, 163157078645904, 0, 0, 0⟩ ssssZero 0 = true := by decide +kernel

def ssssLow1 : Cert := ⟨333, 276, 43, 2 ^ 234, 14121000146609156964345798140339195343965005877730144410888194281142200000000000000000, 0, [
  (0, 13426145812352612849236963298953127810579298751111773272873065137126770668973375174885408004609625084767958036879362037691407486473289349226863286019358347247507102454305251784540394431505004386971595150836671646544308144576798472573798728809970055763499627947103469353018844189084517728282692633016490228282790165142222146390851021886033701564169123819199746621625661667954039584727258949386530823272221588234416713932204391324155536012298705304247107714909676644099753026400055965998426424582265460617269920565640611202233812044260927742853635939782409442240051770140210156813591454128896791724230298644736012084735470880956975273492317431008789861775415544231220349571003501219004159125719391750230453033201981006936283778739590787000201421329211822943158670653457947201331296802523419062668050107014617805089455406696032590174201180391867760675535613188919568571274931607245076283797084234493033030034344123126589712705140160235947166335598485353379753098692221874101562705263693802862452382673981526572065239500870866476211423734100004759302871858710118810283854855503887698201198118738682178970404307215133413034251177522170870813967909928366105730088890245991956216863697589724045435161986240659483110507337059922710059464236596812782535813725222889310028734800495091078505773374168822434),
  (1, 1526376060195686119327201970344632151247799214514972535752470450589359037277674266861755314108634716463707040575100340639824876970270605537150832562856333794059890175765900924550396033681068318739061754835878633291975818858281681124685602391078879891608679366425288816687821530318219371143037805383811499755528321332147032352492149344247275344533718887214461872375257106336225613714220679570022505603472107877043608133613405621435451395461621507848475143294953868928559248433891294325624860969385902151005884725877946403015108904157947079381032829108154310488322581720718762518753402915637797346361173668439734238374452488752039133963107879657434877398091998436640012544347924865624823812382255137026469991935822915078314947564434298305365151771660858995520833753219846278799781352728328146927333592606816896606914895259490854926105183694026883238857866083325712388899524965326363337354426924692052861367349362919292950666717146773679918300371540113032744792881784088312141288847173025925488174866678610468483834323190033973799170250181738650872045456519579458570404182813747469994828251402774968492186327365256175986946106575168099729244085073877932030692518875062632143533813221489773235346209148290836438123814011893180254837395499098258360290099995632667807641869361844157973879),
  (2, 173528867457626588398761892943256515451116594535389201127198981633837210810915424515514509279072935494662833727386480477414906655470827619996138373932846410987154988079726186305196737712443373168191755534721623154379792465338332604538391295941310078388673828888532718416152139334169461465425889103222686998779900174229968837663835682206726613064088142802400156185201138479922703221998367504286591793455967021719016899352641942350084195307047310489960539518387334843346167012201851130797065362615501516189156601044254148634434944160369363928684018572784488070319933026521398746666978117404800894560272998710358280912957858638534735100236682016374568683098872221742342412333727173816550494268973670409797242725682752082550774968612462583470935840538961584539289877237295221654205848347947687218889110979177833580214044181137875326706788847264230413430396150970389483328077863807690547220628684744850921739766209610750698104541254845463730510352822831914910243412224759497127364968035494253279564031067863895651162824404810021244958821593099030497344778826528448230160400743554611766035653365781147765980311409283851458299596601938135809813217103577111719464097051628594730966581574076927426843404769572106178167815065032402492766286335403666019591560019192233942743272841),
  (3, 19727948194671010742099712495389271163175703183627456511112425418313843102955095732285657195356286080671319919859624914967628985263084771303981412294529765289002510608011810552988747271279336606334226818799109327571817682989868968040626816212046614781306042105885889943255294762612886809782354373876692875317064610297844505756056114729145362282916737831601512446604958595335427073905335362756726657773466174798956774265280039611534925291726643819170083079187331218616482944094269797778573020265810273052597563155842880022923389351532178344391925130910804917939450777626166057719612822143608456663092688813142985707542751730959413695486336525437090083240072786782765321221378762160474089932227611342734858091282523270177333358808259657843128857312880303231829668932127330348667189454059659640137566557058780392537493681246482676471589832654587689537083069639931522380318035925820276411595174681038589225305046961441109519192439788006064422748008779835041447177262480793616460637506409890058216316495417394266334624020029615926927992898146894031209267729322249234997092038016142491040092130997772498280059542953058519343460623565578709783696014464428406236854344215233300951696584598894426442671524791250223322741898184370393794780925332269669868844433930222),
  (4, 2242808044988011118005000809647443834725857321203358936953966965383397462455274732324785099462620346534017689903023996858749908967989173482235561584108127736840573403243503270572176378582223220102403822556778928580094734910502321331549275806997526931502993887293756636524369100995146119405757687431638814282117051595587839273782278124729755550437941773407318629165838341957104043320366072607240159615397052993893882360825959905416189632402011263726545062034725926721021431159700773352889543760489945390486077844325664048360907753650755960778943191475128164477092784366751181746578006613924219046695686436567112440229312816800991624855580686429474054225413251511422348686016098235230072780185779865129867984021056909011691627701054951609516176356431607046652352255609614394387357202587026782894352385174695557049434059825233520154594500525346867500558264158315913222067973935633396710885051249594116561418680440876383095712080164400978160311786343656836337809516373161788993321053938418105752643934689443814577934006192838171085743765054331108335537630216927773685565428176411607439628521228696956877935925832914201462971355527423579224970866092056559863841544881174913762319624921423232724683175051404538635134000287719278950980748255966287919),
  (5, 254977754251286923818611377288043949502691398402403017025104300658244649463912848241851077030175968790674424997521782286042924734828053883829347976655768404366491882142725361356062464731419734119117927384283908461395041616754306384285573108968211150966339333455579962506404751933944921734764385227167487560349974455174087697035051647245581483552762366958554438175023999742405072006518602462078906639294138243928259994484728839031071132967782803430798715229994505389302211274264297270848322086804949480038667143654227407792053299277853962027955184507291979170655939056672559188320016108009125794731903763341656002989853476600070936332128587299836702041681924457804096577495853902160827539277291867563280373948743660004939325313273686139309098958094133099063826809609670647000421753783938788764164946821073604886785618898785682579080749676714693441918642573412722788924080237677559328636047921195691659162721546784117417040920373562084682006329299643530156315406776597779285519139654048349932574079964986775677947083117835584654280857960709123449402991067641844554733627745359352617229548267464816148965320972690476193310965511756766922197934270719580618470015380966444114844332227663319002924822117044310556035751549528418443673312),
  (6, 28987614570188148243074849379814162319086267234797903373089900544328503367968647608205523855551287941884132237364813395975366431096978645181178305467229666233662542497623390017459140009511854045640339721135650104474170986663273923146058804032715119202105067126419722001901931427476588593750009889295994021307475856607889874912308601693164460306520864714747681111364727228465775625240735560291671690640002707815285702336578747125607962171646113737415216204453202566276355727753104619165278800983850201196067603593090485423096345047935524465623892013728889102215933689311302777322923329097874377065848561721079296123007779971890083005697592153113653233937085151812039647083252020361134715821692128746363068509964451999932134127326229979088773582325935466543282878083825055710435014216051864567316854799969461404806662175501701462097096013140727538781963743423529862461920608060340301937542387374172408127905506316769542928970788539514178809851533178750424991361479045197900115159330533186883029976239583661167464106278283901126292405795509795695233042928863241644473315911331464227059535340642391369436561607828972919973150304642528814489211788010968643087786483946442315964020502202674409898030571955903470869413403620),
  (7, 3295510233577732406396859162193113925137170921834456677639752859287057545767384864144051318311458992625845466746433589375484010713191610782493888276261448735756692087491431950349935960902241054741391476583845599688421655930969100512136129058571341284062449077102851561210392381721770629354751905486408989112018827723646822381887045786830237864992439507971958063463344754889678327485937138623247811965484596364067977258011836411879808357712831109144555762719983541305322856686996672029326737286265847751118099448955318328341530223944519601175658411426958800006211310133267073752319128486301022384346870342255678639212870390039785246280968264502452430037262158452810987837756407737062775422436583247326458082878290393346356054606901162616909929144098194403029535137928778287862531984273694210699227665301080823911460543211194688291659298758485485172476941366143832989270069497307500440099587735426716619493806396330018527715797600248655909135265683798244755169616716839933559898605546064717582388764450844122883942949249347421300194348493084876211155339104410717447549378422728692674548991367078995569648475025225023799412701582201546570540115161707331486590583783526752679660675813616250850890983243299062),
  (8, 374656137134676601635517177123019101274754907744233682665225485298726374113287518428484340610277626254383615872306289631465462061122663133402726120523476394709711267693300209242572232244838352783221066213610083615142418231126737340689047534689432414332082894032152075989232842143993665258079989312865221690119463769820734157961742970068171173919886258314813638146841271337698154580486645798287987868830509383322803075544906779655299073705558738441204214122988507973027805824926494100205529467332990833610676810275813105402168073845192710608645518470880351188415540115111448480532908575120839208998007993886673873274848248785419365792663179185597190208570471969536894843378978159637683344514852393479912079126720879702860239715721670173667260161554647142532131957033395978424655035665508702132998901945255735837105570866718065341339291767056768515843309415889620911233326619301681165097458860515084436086487727601116057852553582233909264763856237537116451262860639744550812800554658304460873195180096382255940490074214007265035257193564802555632213846749768727704668069072430260806452209470658397861003825189207548988855765301179359187252778256703455522222719740903148719470094682417407642468),
  (9, 42593471463837500054468952967342727478666678023754875842453826100919101703912874475973278619025862355372693840798352724899071070140355815670173583444406676188658737793650767485197801789222279783555344035177095476585966279245296543727937152503890549079651793139436458203503302927855846207658031438866739982827250943253231316471299461462441646963257682991162896331257033050144190676802127859251412231609550574753803070455536133028465323344057507988646217895960547590792408053053633705099574566171780910918946211754224930861399604707146113614395631939874464355808929522927857203018327681019955612055199252911551888784832948205160560333672668122152554069784732264441292323803295376244273217227513041170645479454431344426457525408753957881532765026393294645702526992358771208336090337870941973637413807855118566834337370940336960069576338675561275117896478705746016734346062080684942663354682874622091802723461016112627885831236778877060478822071726395248842619568854857530325064210387366862112990947913203232461534675996005775735793043647943227007987006189399772232255770541141085686301230718601853085701434642683280881161786875776516488844080069226022419753784116412214240995471170),
  (10, 4842317078309577033731892807661862147900442098916173090680538973733644264019957799515996000425941742306883252331130361755989619057385859340476325024202046300690510383179885989784202341664044954945364228840059635852636151781245705902612957345796820513857232201580297692487795635299317633286822392490960280932455469070786343362590225918034053275193591956754391541296289807422020962440243222232699307779688589875354758812083688670607594229302038455517301587856371451242967856734780264684965751049705990103455657362499656626384611356060945490691647638253095895551122856586583881401543255530492202632322947618223875388535119477582395951779713712903149303335857119002623325352652103618578792288945077501313594304164087464266941381252996502294455176765925104413840624748613220196288807220531783871448790481897271299150196068861819656959068831235933665028379601272788000176952209203836243705946998668982576414705076436862695847632001472184202634529002399253462385882042219120969080043498798288711834375285416275501423346087455548706283328247931668136828904794609509605756030660592184867470855862999855389350876793555348801385212105586557866547634672862226056838633870954508),
  (11, 550507715878390744561772044978836464440569454713587798628457104966133131713372426874684151747026333203721520968784984888314922847869850027163502662029037117087058320882975521019966702358947822511409438998277850697904358614919795616357641545823391938240232798486920011383494469930533072475421066939243278390274039005679053771312990865912303578988211479185610135265993654618571436280972559669942178036272774747357602656402797114265876442607582072868956582608049240120973065215227991835145729856970546064014303892974982844223701529634711440803507804675721944541244363310450670617619829527312431340105535810763209327606694797130556367934549712029176159719361210797508961787939436439411178248765422630357383862679317209265248304077966566557149191530073748986870280408637079807469733298318619347769933396478114424019895079606621455409792582595198384226336420597728021254084640071496386574554075619626874665925161046241067079208459210531742592629792747832548214410655382804132582000774829387474524080300420958257466532888458559896968988759514726732566251706321512197976879901881026170481381962734412846956167540258896959807545706859638269384810213978052577205),
  (12, 62585481359564112672361721363226532098516310578996558277646852839795102649233334304276940173056838512334425214338010037899371451188682161405666040767418635037649701289748864044209620073951080315897506693349652175345949969473599096131424806324434023081293253026947242163202471366563835599142870130349738063873023634832754143111855099267848297471142754964786278749897252807678732583664504962819384904409250196676748903019278840732326494004107879944621866185121830326462834956967980342045135541521920693414165713531358829211933590021061361320276469519935824443958915947460194399981013669471517692000647056224013418824060309445900781254798228455832262982481672578636860231301245072454273214073378254108442591084392164640193071655276385727462659569517021116289674744712440765477610735624614678042178836671210142947772147090417574514639735153365762485571225081652460201820095034076030213428919171581361342423378556522460055179903444369040319131938061949896892877626081735870076605207941194463119201832361594546246809964797047390504581338674553909732455106566994791220415329007682226734030637218609880409028010216826699764520887321506839509816281),
  (13, 7115145463053990246449043452597212774266644212161345226109785112361703642049330290351115328696418886503855130097009582402662482671608149917763744357150544037455085946220249757540116215062776099773316979434372589747221123783856352944374612698588182761488184613307026002439951226570410153629253515003908667480689431935474447426697122326441819663062091759091604075126412318204385494898872930527816709446739218569376692246269026410610251105493703101344847958116796499605565595285040710910508953648095563655052241475841450348063257285826475709853507217025002525215715382423799561970144060041278055347284490548335053747420739281952845149902777140936465146729483739630558137275315716370926426641547052503119145648860090435211961094856263146096625736704597462570116838133770332479900432944628927470098264208372507327446033134435745873586560874631899592254349558700826485311365247830267160523025752993116348326825799302521934443898222043626311896918873975259731323463873889591403167511186048373788465730829483709111570410632702584266752187609843645947395122794487938515221452792380535521742148650186044588585370459125664057539635696012),
  (14, 808898387623911531414824304715376999214031935953397035758574146753028758445149184166338651345588333072539072656696769445564141582463906833909703022658339254741700409138076083484078960175654185579027964585563107646887729491010799500187955879776857587045035940412506761554135576553836716997154043724993774444634417697611121119132021968475989940891633041143405088760847811295705639042679755508267670557727253545792415507806825463673050206295295436273687296092793587786851002793473607074532646225645244573462632783485042903983326557614602701331883855750255917540362999581452933004690069228791688501888845819171256836773258658276302343143279898642833244672690586754087075813956418962970688295764772621082578665688824356419431864860702190783322216825130082232396780574748748384172083965472420957939606800811489054991611156839163138229205352420474692783708184345767163081183563031050915672840686299288749249970227443775397081954138602223732894115606433701673536273213206989246916939010959755117687692302723199425399044622354982837759390403605942986011535342114952503020638126400465476552362737576598238081105269400045413),
  (15, 91961099727076490514130489909277571224951308972026371948069725789654143960109329801336872531645478042325870848878454290293591564302904184149804566761570101191603090357838946543333686369766631466862686987219957205398683241925345953426126002315965887083284080792112349803816820957972222117536380633850259806039777879233397597901332797900521420716772017970402554142407076516941019581586232960520154683505012774934631978317932574063098650901258160533153306470557434725702819695638209745372096929900777078439959130205925578591557136680384539993145792758371716161658661985377496944889907452958233921899245194623390462460520060818324986270026991069763932114867493878297805251927960469619294121539824723134531329382461799772063664764483564306218088214596223998240106068159036884068238455334484299524701480424921565591218925011090016210892983897095260658771553719531307881189499690643167624018541255187543116030747043059023161489760919859246317772047683257657985455486425745438703397263242792611144226458269981598900941367924451626179516336409954484685546539379034865326384930351297048873026146202308914567270),
  (16, 10454766621373493139132107206623637833325950506608293374946438892681515421839927717125746372817670594750537799072669064377531818115915505603630272930964804480891313046167732243626879422864320925653224433883674146886583371488694178131723447485906704865019955922447519447338984373115206621780132608574861001902693019386947252985616250714488321672976328269487857385502943147564681064703362717468752939965385482416267220550927569782186157101620910968125975440507026488114981895664437814204131533404140222778546459517875243658585931990798766250222641141582445534703669848263721460039583613698417072724137601492797991790592445459671457714396271553847463769253549688115204844391426103559928683536403246731818616831851351041528417785212719203073022816848769321663301447316676387289353888265431211439298025638141832644631290460433862166520553029785832646095498152029813921808893308879250919280463867042142355397971808953202190354275226973289276512739586157973890199837048268945948850614434071340763619365213417698288455147201012493118754978618387760828529849099386778047339652223441277874009775008),
  (17, 1188569356301456211796460957728372458555662718323252803991913298509816220512212534814096485754097397460843444499990831033930114485419324592343204236722704590748811943531988190855699874971869681491310124543323825819991653985277273265151444262063103549851343350661354571382046785074090464806901378389609476687689154844855153554091913373950810827520436790733567407358230314862871758203182561995703615589876049218249502308813995316789505193539856801194898189408721292251696228921041189801614056410032870050889239282454951041767387226584283480035424343298175239568203366797974831710425217084109817763425252135006528904373706175417681080741059201480338418089187481794081828928413595857512638246422892635148954039142404175626253087457423828132813575203932327770518832519170823352167672514516627147643338366355321383398732169899457854816304556163179896689436539596419001738847824770198339009522757828016186681282560354255541064401895907858353160721802987711175110005336073519049999790419775777609241678532947017879075849309310959006983218465463334509595892137273264183782711728635245),
  (18, 135124691530729275177288963928773734841759360088332505710231236947699496853626048370426415858002814895922193102250142946323889473821887417255220979850799334457043635612988986264974741399313379757962834963032472139729140279232214341522131265044561536098097275346544230544855825550495235894106983595248661536935418876607304077207562997267679159849698952568083701334925344197344174768111606908371824782747813653514811256720121868601098093852198962985641877527168764146574202291167374574071579492059853470310513248757041656263785081868283305980335121928814380498142015458582909431888168500632850158040774818320583099163072849277307916341114380352374260377619947683944329605530761151665541782149649318643398203034628960846983464781888143792519030203905692569623433840405623604988273147965067248089331947930885839262003492924589315562675154199351823467192352147320743961748346545690008555816734557704726782187494784476377579723372428095596371983959178488160741893919817836151080809273676608282405433053720160433123633364967273877368211913676675616945550664946772366944),
  (19, 15361898878237443020371866160618735061889237850702159643132203762854657822302448081521381011271252520591837435659970531824443409484716473486426023083686156321282809996431409020371431938578255057787241067107114774868152867296909601182293416177863211498572272301606088893192443896452372870738484334111565378513594041192766789800721539594141991057051535854962333057179119373056911941615863600915397999272933435976803054554707372131030989959549397438609261999678069986040805166699939783719807961922453326941480696491116948013068723611278374753988195824250856007823482449898872798510575636154616929144604077566750719875585469328786950876750581315697057361141931726289877775162427277924418709124772549682588114809062971984508353794269991655022349961266658503512137118101446789437496230603146045042980583718193966435673833377392709928369507524763089262870817769233471803238548286094001889327704734298540850537985401834285753903553666889549125552799482164990896791533149624094166906395252110252914385492789165732854314260898152506611641666537577498519110448),
  (20, 1746445704866055509725341171431265941224550925960802447108585938946664307684664900252912617733187803491072990670996947736107746264305714417608444714879414768948073514869907855924274365245111659736180748394316967149751788758397833724108456428651062594618937544237961548468825173637511951567203633898266773316390076751391324000988054148608852194348803079147084310668460531480481215750826731995789259516747442373435098324387965036638773876751360767071817235737179315269805234345305937463286677703135974940347344561060914577886756889674094340481170991497275901035025803682593389153560542533390902271392628666317020855172273337069127857015748832219369379319135746769575624265712819379427891358890210327334572321444557601050337586199250625862413866917566283351437095634767055906869579315888785320965253383359125949035014258829845235742123341651779383614686063396146941872748297177621424260887153259260444941088002612086372426670106218770130618936419694155518029027837397400609887146359015554612309468366053944458808654561785239208453292543625),
  (21, 198547889438720575267932550949725048351928185861743537214873178862338171221002187423086140567328107350826143223343586639215089492643723408219607871942504831275536334359220274555386182015025913157862845354693145867458018615070367755391595941165526550619112816120600831308004805309509714739670429696419293272400645577294122176793741135567057903511886602148829787287065816085542020999904108520671486475833653727640364459647112771180988360896590252999864928339909433278740520375470843812682537384619365047907550300617995656165155268943498221371237552718624886763433435651781107304242645227918919387100319632810457611293491246696073084065220769968739794161673239344023467777376455734479144649566166776642051364437748077985768779283653876526290190554634461673843304305136483074215889074728459747142023024650618578729632349195496062280813690487992044776419750601477854613198303989204540682403092411833660279335683232038926424168735076014601524367287216312446424614279102227015593368680153125263484050254616686388168985013673597328),
  (22, 22572281686589187218934574838127110564520101645683045855420593723276644052589539049118473095328239122730581496323746550753536381835570342470829004007840106996302021611793438132211370204348203646743837152222698235557120212328114548130497035022645667438509100989063066584549779384986972529494599904912694600216200976466793938106291208847216910670782295045322574343011389838186689871679858301908039547451341346418344580757447235007588046857630417093772044647711190154807413861757463999588286963194793260242205807496382803125333962661639033856899832226889040305068268788553941222439386685000701335093727433388058275840294613865300639296504945305677000428903834661740782462857040225406576074425510353977243306010407387637852652884168307335052762338483241985425768416176194233539428675574820074360486868215521902032018861038480522682508362515364696441199583213582619966540070621233224200257718193712561054201478378883569383421840892490147363757809429538413293461901434391446785050962544324845324279670941431292697320),
  (23, 2566171325109870306156901146792632808287646826748078394236994622960610746825925508473855313164703957537606299447787313369364753934356752150828129289020592636495851094399931540944108997376611528891753227096921618289925414993389784755265399669797905907956772010614152644001226165640556761160792109980399641269309651814500505009424524456246321127626094385655343824397663165448954017811031269719483082946151324269788413034512727222998824670143041782213463721713104650326320313206981234714000507593819594690742612157887782918553611661995730753361827778135452567199544841131102226444022404545475632594318667602436776867802029594023456701060309383341215524258003913913701031239006922697786874712418887026754421219939060060934375395406486596285371061171986691875294594476744227289481060026980464582581359871733105607888134833998753836351456084376374891184792727677192325587682700025139319448041763849269991795666335421619889141600218548559833362606077839404026007614641009473257182241197863674704605619887),
  (24, 291739903003630195844027769771018121024058794631409727371305350852777649700547670872067023215629883172551478702165162913998387231726695989758369397466207446597746990664737898094257274962798365878797224820223347966239704759731214921346850095437492417199424836623410629272396609581000661951383348193803572174750758201128122096795837530435883437306312587867903837877482051845726575471761778967388986864779249602837400406600946464891288163715107860095197761634253788796907611002103408603121143479429141520728892932131259822580212980739322610107020964729366467133008200124487536270386659620409519579999618727506961454266531709951919222781101792632390224559501894086069152907460216623801411947838516121386976457844103120242980340735724869006566137923702867297565953579866220976610635769736941989942872066207328928754285026404019105186609938789774201282535277606414151615991664568157619239717151640800873206662645801863259778978268762564184627953982470052133269042560746618205090395401038076),
  (25, 33166987009693707005229472289445098002040457985391381881902970104963247843050757054705516477000615301739285166850682220910856271044246567471233151703268896039588411288689019112809691587562879917504372408555280795353576736457764004779488697685962099194446731942595150630085823829745170536555559487374418060284228681794970963982886761463746942957449458375311205358853163925883401983783389706262481338942421826099848704711910893921786755949495712646756375009248145313119257178729316677634052414421250436930973998693594563302070583004572786065233692775785580763285853762249961068644388702950511774473273819990415363312594190979807439423690773924664683683979851052421314213949716355437012410300293648949994546328448904969058681435556359656738373615488055744745163069036609656633998829892246333051762281236616736551942458390162017685029239789778327445146341165873433206115770864326007079543961280651384630479565656872164081120841105367749958499564689914226225566556802211664378),
  (26, 3770649869885995372582041487640378591327186994179940243373376927702707671761658850153425700796175908833366198320013861679269242704804874787354623515883406075725862511795755735057547506990304090948526710298583656748812329221637356201823501770145651243461399183456154631822508216571938025544518437456465342198069797836407242810183420427136632378898122894419339599932432511864522210064864078306354865497089784423661592963061468017462425891737423826658146332369587207710910934291734710688662059022450509809063765288262655001678488890908971499065710397203703806270074374006423062111450272824697641038872582316370123679648463308737373460704180449430402374246015192397610518772901322011826692864652917565608645602900619310842366160044687170916613667960291508183084214465724960021352659097584978160435063197834382540003670249988406503184011152915467854777208754041108628746789224825666038500187397118203819043820229807536377204673799410947313505339961044324584168963),
  (27, 428673259862761753149930142130913121869433211279549623597333371401726671110925377678702909724526751782987753167619059886336486068194616881027584840453915384810655099476634374588860226480199354563015584778734552941024540953280547478450842137379555793297799844305717969271257540705384829555500623138921735312359237222654797143398288929704066547276184211843808452605620972447527743732378448647336297824164124042870479680729956001963436062815989947473850373968691235974731120066280024307883949106158349608053094172117459485448112798166666566746266012330444615293760639437102135511923401930849803506922847073224727994469020991078520767260756278563444091788847245284326910277580510266040306481879297279018980063208854817222906946470557630107215359652143514583601563687455701776441787133500957045791078017093408776999997929621877698965474625641989506254804838628104405732036884860198505619192968406927911677194884955547643503405985138185396347271587474),
  (28, 48734507329613933637793950553135928415648915151854182977028059599629917910411379316281330571260554254762127262394990326167372366875794896376144702168621209331224133561208233753502580211738785983813566506198020868057999559059743146286887410653839173539586209279345663307055649591505338043532517888129602319208883866696714579052046352638179376671835622328650112263587854209564255112625056500216521479178951631977537241442065875361265626273362523710451325760071377599017158829558747354422093719759911136073537637695778874124954758414780466926730448019374220202711130147621606904539914269320980309764031299071746629534416159694892474587751579719455079312118142357001624825025287917594999210668704039585453649484846989523252568090770476128180415842138406664440925479629551705921768646926091009996512888951606804951085193551962371044912675807487550269059283857458307511925068669171035122522425472571381516405407503968639599207189844809901),
  (29, 5540472026224726236909413109189691614989091607623570664262394939172499779307529401680918746394644842298717692573858394799500770986446115827691835666953603473669333375392879333219591468575661790943464269071003044252620334084411200170380585706634425780474226630684104669291588105750786103673421836007219362637543311700109663780954901157904189025411554022031181405462559065377292326118669791438096248033007596465428984163636918165765785339388562015633857892705173459011220489967440180064881909388574716512624936922541095594838313359898026694829610885586055105855177506111800065133838374303286180798878060185607220698124484529970393484977042795012731133636916805600158743060290558653053910938752479170881038207279769776976494913332385360643079172856147722265659577504315046401302908552775980233984507196193330820687165672113534370732982124074431224599661959023770763332358192920300764186960922538691161677633443412440316605),
  (30, 629878744146563603511528198076768105123516262167819452800176229535793456683169256584837824720426038118002644816199153274226406550320247768887820219214700440905896059051983608380804920281623457292819724565447705146268655662926357782723765206655392123647541965361154401454267384195962461452998222285625543308645241234001976383860312712147809750764685534480938873169016549842320527774496765724692014824107470149946954106627064078341710545296554101638824730910034508035375182116921614323678856863318214394783298944910419314808839071583464716657681365800614142235193463660810777833304110510008174230412487640067485125651275466715393852566517063072618310937205735627610969069026772019900569946090192117455729697203323481892535955709793450581041736934170375763760472243910243585440165851812954592565310038246364414986776183227821266425487173653553015301482918541539375241232241461639774567199902168724903759326480),
  (31, 71608922570085679070817627470747550560590327923798605843350768456706811853469987066186811798664398124629161067809849700350515212257988397242095313596871669790959465336980384606795828435863706692182373054202765291196175856262738964542650729374076050094975240126718108678490737497209290888008379429905465179745674644664402010660104760080208706172548492586536084805745514308750383293160866309893713661978778178496821395340646298485002716783980987902284745074200309702325700129508897854776633317225682386368241109193151530609225376283912491540064159224487922018455755574648052723559556048833747314913607433335785808335436252278970210162191516807396753506856608236540991548212871571804640489275149504269329164215819955835736743077587687773551499194515765245132505117453506290985823108323977601304270312081341102250590916392162486091163944573443318436135989815294821889663399773498623112760238089819),
  (32, 8140991959645098071498253770044760876838873619339961560780326232896506082109907204788534249776648508103467187062261666636745213993207061917257228014576829740572005145734281610065844283310946899767074348142473956067553428540888826835572527826806896211448388399585167994529312806799827159012281689445611070794447487590378160650755576180041396829954975668256258400873715450059808468813041045319459359205709854876476178125996212307876446679060018503824851933667203015911591727476182846959924643676441070698342383141905611453120200251752996854876613498970965757938062052547547798612814557513963920210888565996262950256478760086265950674242629231711381256050470015964692710009584436207428872933078727483632858149932255848260922826085440459572844119515387898643182560598701456744578924445148502772108605424053243464210536075539340085606643880792986166501035667394061606931466213828677500),
  (33, 925523631809153138362745922909739519677586215418609931564370325861148794741655729556957140832383687223167179020295141826493956386139764381057060292570989729548728649403333475909885724298754541879028960027252873722722305108264757431649346452423616962215463490745738453657544688076066809004746765986693739113712523202409347578708954663402596591835427232857570778840625948778881254085605218333256167485845535857167085241444775016636742558794291563360201888822417654238691470242585674523636945291643213349297277801667953740336633127316851184282037414566280685124127702448412787851480211484603370392974098400356906114439103215401604054613090763390808178063068790661075382857434510047017170920351242152604022903706983282794589635372603994399830662069220134479348058173062016255864266006445585183182833803569195641678742127150866033305230731041946490406925178026816785849164),
  (34, 105219854937007896565176670595717441719624072836564884205969329498333171925612047011436191136497619393499824016122959372579993713104586775109175993358234078362867040755569800684257384580036448582976499895636706437781220427980856292339165799196918779013624713428014098742272004537433850715018111939877342037301846540050217706574752732837472038655930391282571220179782066975340334833346090148859333780723871577150645879154475575231412526099475193622428418200635020244007009526992984532236560925622387626846397856075721618372170570187458139051423576767337283040150929290338094817514716912341011672966730983055793389608871237061971118935833679951820934602581183539116366265379120934364886726032277220717933868390577425423328142753224320098010719736827362328906340351659630763460096282137704227651136046808259721510009248454057864168517816153070938336874962557),
  (35, 11962112573315595973915227500096698545306034343021211066794572786686009286042013515206712229030201728335194276965348691712733138172619280238583996078686377400443580058387146969409671394264074545273672344551039991277004950004636190480956179180443402744188542036228466115775518635181680419352473102194078596460468195863156909258757034648585095757631874513527788596925031874942631317554020187769345406426403755613808170042697675958897857171872339577617460410222509544708367947095953931998670196201341136427985553695373384446003877024120477031892414762168996670888640388329456436827025791043720040014470146818377353590780468625913765610373605232270593885996574581610056668207179588301444059782432684515217762149196729843287493953712811633677891425767486746726202139778449525970644711437106373244515003993647076084396738156577425265282080632466588),
  (36, 1359934750930232891495873843734523068781758677576045905288375796167884946730966193536768540642492749649954280012633340869880741840076925682135879023768027013880280271494842391963365047816304757506449316741854999154043633780547246542591458271595388708213765998633387666333819497047179586315050198913250266428751199503302337419705826373570482104294420665528879082257138246815928584470185593828786352647401194815972968944318674043856660731639259134176914176064802298656050615681663786882151222422718747691817520404993353532422884963672041540695933236909011029275413635822335831705109393191494911076726882109641894899279083641367829114416708692337197279033575341895214386197722169778240915518730477403870724548610085249273863977085572724464136910672502071809986933920586740833985012112373387390062558177239507497640941053021805339919),
  (37, 154606681340991700778417207827092519071556884861825654444189216993423195473379359275073572989923917435812004443122684832574207330262302739599349368264486999337382288956046339986115191074566696159587231334382408835386244593399538478319238751236683664071025077491115969943828019614463708685384545151014167985270932499817645518903697488979441632023486742975021865343409170347408992878492335179133353164142063098548184299691583020673922105146779443555870649243537896186289818795595765983817419352207572785888365797781135090171659391444017955581461096672051125823959345035000096506358555820964691570890738118206229277368771327996297746824675967304157877438715091024334341504281782262103328217339258755932832550618607789908276755790434276718396306991006086209844996028826909611370764316689795882501322934662095956770631026),
  (38, 17576744692290924465216586193843399891142881285966911314538858390895165424965325573233891758482504591917404973528696795321389723797244953357147706840861132984330457583842683105344257350517033973981964588163283319248221754764874558340948027675572537199403209057335967593624903215950352205784108536825742384168430155008816024409373731324770179922595582852695267441672879454818953440751068608441926998286602188561195837929093781297740316396579933723468196474708136836501909496411349750295313645339237506170417060724859453721042183020741559039698310721036906200290152193835576347731997969784430421628271288687980380644246666400719990024852437256824200569225414673222093219875771722580188292369215981021052219100686629936016697576201930706996467568444822215503377452851707667083495236700557117967305125269552),
  (39, 1998244521506754206850085460455761664336805698208867319697089714156296102483489172895348446955097710078621841322353338378137519134411940439934790770264627665748145953312210065785650084594298502222723594532372239797066612796342560425381182958014112182286590843584742068612401561983810486132223087538873155520502484429471986156762534316838889636359065304160330153310874308521077677050566606776036854256899932950023885576388618765484649974615323640886882423692086462628168303493978026754224772993779463659422682957183457743786402371505115159527262224855380585457524413134424586509595242119904452487532668910721063360502708888855268887609031973314055542569380334240699961123287439698847721003096922725099925845893554395104305847799698529702701723484970648807116718786239478147365987455436382947),
  (40, 227174100644646637971400816747491451717087977409490499632862533207605349898982373462712126519715833419311575348996636691724406675167749704079914268989412865465527142227098245915118478091505778845967551493728506079272234819239038236598954309720342342883605296796808872583873804599873799116279077024942234762435645913564562205799308155951492943005391862019353029987325060554750416494292768224574327894578040289975158355178672659402325032124588107212662313673986606054657509572929922319013770917480280358641944884741652953314350312422613538067053786568686351883686256786013432570421090378245189652327134573214418744502805288909707631982938565804328202246826380131667305976460936965150361568205169416750312953496521661783579532722061499168685685568385993065470600796217799688633592),
  (41, 25826705114542009820456862229035715667701876715169703360614054555254068634324354827948823926785261553425118197317924866549761209582300562884991287307260600176607468676009072115508292699854080041359712184457742840047004951443250836154397235329643800418185577782873812515665126429729262404918645414512560278826505820171995642877364999485958517313448850392789795319130309589481371271403010984652277094065573225477818465906267276149289579519944876134620619472217118407454871236252907218013775688766344851634793670887762893483576617255773701060294838716777067799962736971713470593229745407244204334788006991416389481192695183422777208916733275307274170351494624472727871168744145909747282397109055138402421064853533773342662450179602096660714201713331589261841035877850),
  (42, 2936156433240968206116220043103989572466830022127590309607291437175043555990254711554010092048117889297537016912631136006799667035375500827516772218392417860739165432491577312038294011171350492147755264471125844719997875312437982634775097912845573585661372110112731393600388291386512306624903764995305296713254346413130042173703720887525066649760983908030906876544725877129201815017605304162955230813778358734750136827986084963160815449048969991758262523605209515112100194583635218434216168241365914914264337695692565837348633493397339425010971227931828548660126716371902324405109847389202674861410723677991999053802271628431550895405127439357078750422193351615671951669588723890356900946878806912865105963673995150855643104424984077339265927035786697),
  (43, 333802339951144882220003187638211508381895103198938876358544284491363618598172105470667940158832367307833156193678423665984328331984499768906006280157328274488074787505250494241271298305177252671051483722986819098268958208145899939951337029681855279630097727796944779918691242158107872978092260291272148544977177776469754369293929973281935666687330712758110135869503483351262190926173501488586563548944366938695711689548904429720950022713599017728095746083017022009712315926972094487649569819970963975845756866790541753666011704717159055054058681601643371828543949585754822733253372039223218870655411334770477674345925636783021340976606005192034632942551678896678000465247000560973481091139609890773203541867848484801459356556530188146360),
  (44, 37948932453121515461589659439392961346799791408436576188994909499725010686935559700790229289717941277084850775472480525648316908243998542378222541646815474733565996246540009251620096882240574435747267835313344225312718656082133747730088764045323623784450770009164939070901617241132424787444951138389639041808231409174712184352155858925185688162781475406340589062004016046129638980368493899771478039639132318966167768861178758560345283524896506614793346709990337509165644467037022195599236394373756235091957164419170910834621670662171319037598814542365945364199415057942717425077993482784637952109510226533753946045995825440361429709740235111603629665286228410062339085162030743761149619995454385555363366209803569124888808784),
  (45, 4314294125506593839144177245474675299510612536373239002954836621452728955652623847162229741311187044298645875582278736788830077357942916748723125879998346446605637111877059538940113371268144070454995622598568630898703842483615274754380393012074053276949020581808222578027433588863256431465472596472067767038481412303449049520750778570159955434680122013266381314086132244692315998424417868385558295471051812276757430284435109779437675988510663412530148153785988264100569573182585859676962471663156264571457407707248257242866090769146992763899218703361459972264810844371936630476892107737113968427917572095903675917674159260740133681659462550280813660291804657884313272121562271052879560166913210885958364956164179),
  (46, 490478456129789474191986442460196860737438843940849324434888856268654416868755998525811007915670762065320317967948396561590706978443326619153950318832169892471669881146802064308342188411959104418875822388872947442435307031982249478354861044212272381957857810682452850953111218562538450082140267272828645913547269142407084679164732581466644935740977105217070808557177639238575617650486566167631083933197948706739236016383783804548978539822671547376880682689532563783278186421146885211419192381418819087736908888221985794980187569246337847285040781304699951418924014623330159057743356226962744765023586781829062342572184728082894141305919775041876343263877773865116934673560059091992151430828904292834),
  (47, 55760944647976142981859361777901183442900087804997534071263641666138757599214386405698292937321498591850322323801764987546301538082312460932593048577492697003719732620348039012786718284946134021966794070735382481767406589311756151581260596726071413353322053974510907090248225737132531160800774247802703908395379225025695586125715837998306048815934461259611992049140382872409537399626574731062756259022442522531286712620916984311435276727575385263027220954443624261577588983475492652439898131707858244191637721083284807475091613339538185906965913982700590458356547879307829309548007785711395176626018095859406238760645335740460355253605289392728917880537607328631779323472372878457625323),
  (48, 6339285465398477638457207124008753390046432264739170713171875111827234559224778695999963581166582411225399746831699870602540333730111394849313120566641964001021731092564742688505745389801436627630807940071511702472621856606968626769659040202654977411440392360202559667401003311991612675743103688067485719776499803548052293672845050680035539154270821343179011983837823731162010731732409630841393491150524404559313386233838663468101939151302068997376519251503566739220412068280773408929067200639625655325904810112115841882239605726841783212884305573416802152210218760204006649065967143297207550734091556211739217733402035613324501912362178887432448795009801289983417983700205),
  (49, 720693317975755876256835918412520344423504896524169761638845001451413117959507269006276553814880391112797013514830254121368435986609516548356365542539133850145974231758836556712229228522567166509588622763143034729580987718886897066811964687287058085930133102000305125203123974872117685530674983895075534552018034222677600210900698307748322661487448686916329508084487456313403535967629944451285907860150661085368173520886488533309512405222168363248943705827172106555776130409990100154408518379866882572972797278138732062433012652984376430365774522550495586102605623392390420863205846038620672391338232203210086009682565242246926924449845654307447415349095015024),
  (50, 81933344287762779033168489878848998207957367472337155236214698726532005589377521233277156376843821716738263471910189776042457413891440877836648045490978229637822686653142489552920859277483537485309596561050756633002011155461623402091558613985809673105734033981587938455325936532576719570517655323063110615908755979466359140382261884497414676584848572020449888851807398921777751053859223676694718990419568321300804084224631296258352131835826282588964581830768863857457787419022148340186937429211660180626154826439037137736716120576223729804972426644554685915534087447911420544526726888387096354079886623718259505567398181871483972023300653557888415),
  (51, 9314742816032182762815920100234620600526496613421972510447483128533804755236078703237257784262945019320143712912899985037026316444287535735212244135020125158959518626608726127780925999228121613357591713891531182442578152966441162904981940228723878553632454449894010333184736431922344020143325528194374184881893995114902483825611665270812623899685905958135400087422548420103215199633459186395202514241512122824593119920922148858930859052257769365348717296777326138115032342917298795647786888387476578826251635421083873057788147905542859291709022480338215445241863196438237397106608037107027323338062629591875454239475446795357312555149),
  (52, 1058963654944839477459017882692321632080904306965518629845915157663262647842666263299777004279356458087210083051822132164062099367137475370525148484547324650720062059895477933080754897989536701442385339884178956637893456379529416738419978620415311109434138851587581986565016689240792367447035385434971053780800111469671271455794448017885160342550687632261579179777638837269246785276055209665373639818370593572190106666888159991066019009693781708825685885203199390724454895314361368384109852958994304228796235536051314234258207269083090965462841848414913822831396383629649748631986745571096003066033421127871208724326063402),
  (53, 120390229192803357984646241071950684281649081067998694134748252243214511491108426615679091604291237155858706670610913057478228563115122200816455998834813986602734353016327845782306964865275040474259797703187478597024266237055577749414633834573266515688878707101365112628687396622300551503623892622666653785761449723580457114388441840800060723804724287212911389403681806633460784826045104133561741284897926768563579511296479430031572374185108077371013026526193566340138614947422211521191838169383080298045889719886478405113488228605904362433946998983113327870376603215857423711799527971481059526068409419070131),
  (54, 13686784449510396141777873830500389463128281143781202233043160531817209978248393286792595000114093960041799980527588373433022717049476111009720192364208757433495127768746706144849457477874859095660549831124387793154985703147235586584832493821538436981014825771395833862809958294706544344128918668805818799104338492156464972427827636612695989895270463042593981284325046133999590069522823075738875524700089567086775327019720226727246168246718092148933482034793645924382462468417422209484870759264202594706884577800470208567213361067651306852349126460742380345304629015820437950050756497209189755221),
  (55, 1556007242642226190330106172780277741268069024020087708190716552999177924666082849585952347652688213266808446492852961111262555221418925422068500121550696324829769306383470760898043274669495397844869656602457250628692982997049757914496108949201725967001436050386403333205244637776033011020208926272070770834403377499383306247185618790353589309657178911936388515090534513133678789826574675227911852638354843758936769847567721897390283726858622510184355478599204386256188092761216515415898850336020356138566188765857148405785454834217871697748364397448483993377709708006636368131713166),
  (56, 176897542887925986898392940563585141406755477255255692355668598578715391926427989190989800900004533676478923399258842136489731123991526809878186580955684602659101599021189688237414753730991809758341143218248936324890948729012266012559256420379062561413780183171645713311305999243020350883899925995221756907567555087845863379730338759034006980697612539133986140122996240312643099738149812995316670148001466356842362354092734447590131839335867800644231026357143150662178170908428419844992458275264758037579362418249773702620125279683624846655175313865749909840133765040802),
  (57, 20110922251652253510018561037831160841822542211575252444193951082472376431993569656668368129382365151393005123778308430611267705108525580955453786729972609476129651130831828898349891825741308928623141437129574448521435905539816360435337525724179175729724216008794114144815870077638313898072714768561065670415972111818820599613200228408735215327560511237445877722384016936735478575982811763528067015980887634807371296648727947927147370523615107891238698342120892660460542825671101147555447018385380641005364833364445454852354050102147650781744128597570542307),
  (58, 2286347154455626806405518366375050758596294179918583827029393695435129363766453838514141948194128387493489297868436460628552125873641476608199153251484312776274648880530963463651256186273090146000238193531744942794269056962531256727214266153736458994288707212129633511318569144000298623742924894341744109586979591050332584160707695594102407883788487656514253707643493137032793068565483982323523110462161586025865356560108592117614225503500531622474697041206173289938541170131694214398933095236423269629331937289931284256244777397808502103336998),
  (59, 260143533208599957123084083464530587147724264082631922208192455757078944164701169701678933168472379458646337417924684027397973227322866112076952871556998112435632512704005630854419803060963022352911518167340968109355078379385139921476311711099530462250544451694358176882216301187850772834940251535929631878939377478694233127624747205894053636217626461668364376179026566440882898084682547237009183725105463975502120673261890524901461328061822409798426895077938137423078009700416441249960496125833246785087236106775393950614023213660),
  (60, 29551380721026711017730494517445853577168563887337528301995715085785123465018294270027747690589511316321193803341623834693197868291450796531075697885762293616522968998468591513277694890405935090948278315844134032129980186812719834278940512665197122503562727439606923210012514583879247176788760010970174098214565772112610627757107700007045830376928286507337815734557928972396336906937849210182876925418863042621963594474169638176284200309343666111314026286563698401617505679312867449440183839246792247465888209180509279),
  (61, 3359283053160322708135234750757824793724738710892825894818989512425955388861763652666828094473200363765900880804567048588172399358014082781054376827367683470257500135226024992913957953777581028350811306919916260107807695431454289315033368165640814831663829837205908543167941875444723095840900452614551839228607415976754980222764198237134542281827232488679976322092408259748426367099424419896149713169883251222123539731600991540751044953634397200824047050572386837175547104264158319159155317886138074436124),
  (62, 381934734100840370313236830445093651665660909874114680882376866018514356793292328141835735337739429426004684213949342595877003688292985892447884401579367582151330368408227310807063097366186416766470793347345425064274057076650413383101652933312113346996019384450900066945680877918844041540023519617921717825995903044689618867540743950012794072344670393915387922822083278155223415600353403380333457330396177992365878537000259706812569332023077427096777885489245831361138507568565451042048620836),
  (63, 43420328590917089268965448462348244472936308059914443510307130028223038617658521132125777305917162810651439047610202272911773830762531735812422287814081014812973855751779259615399771098272930995026241460820811623844209744858727500057247588687633066821166401804609082222497253364961990748939538215548787187062170030893491179493181640290958769645645547378868085836615998510654358593755718596933962028499293375213786560765810073455169689922207368146206377191066394890737376264604290),
  (64, 4936319263356717753032722235988905180709583445979715513422506062233539410859463674940697006652225592360412937436290744379835493712361476902224459846079293764671936997936663691252211620905122734765889283216748607404470967472602395352038137429196112653544106871510935553652983500548043655765096821824313529751848882669742150314937776138673754062094398842112606041881380834212537423452311574772330984163032205621057511826844215905109383042638917738617395565777230251566),
  (65, 561194593767008420394795119272082696607202249542353932503318152738832781455388898330950626961700018036506814713539828262122846756195173905977500515066702978685315052783289266976374464975727521333505058418948416065167946821267875460162702092818554096467140659823172512899182517608807060691452652098658707498839601369358314873327847837214091408439490220849837249945500056155782791189643704895969584074773384085263273699869298480182793033032408124874626231),
  (66, 63800451107415638389974598611078515623572642474923153865186610356031176124287289392816662534989284322303865001947610554443698732471572612465168876106449959101190559446509706091752058656289829001045937045642677818270805466875344389721971725564137304132166128746220386507287526226493175167817583473376635335128018532045976439258192976014070794599478120426573186373622072178587202145960763037277776996849827957020807914782623853142008934572592),
  (67, 7253270122400649251323630672787662064957584843025780586379344240270589248057375873595663969460335857046153383774558208247614825521878006256077115319945104926096209637763369905426969715121762705517444833863143500884484225819505214920899456078996342677778974869910404233344579081798927111070407876693000678848534648391167748823267651619486039242434120078929616507573649121831631035307924311625698323233709064588217585644675750832),
  (68, 824603561018770969661832353948159721555242732440413123685843683129367019970595314337838869206232365320744482322822472570245202475051108525343061734822507458252037018622846156529661063901308329345986604307495131768972176272175408531422927692109689240378200840101720481673971819377736813199115462985044401932622992665587714126228639835316328629504466809510204945209220517081244714669640131336994768083470905796806597),
  (69, 93746319107186610401712581915115163043286462634981456449058403938399382926606273975436251080208737451870414231723064429132149898431178549354101651013192115722159772583493588881888491427094462163302949917638041794543824463361112861879554691401954763980870873336699569946320828264508056065601638201755771163538645964094283926801264657244296468587576113405140168701086879231468491287093974412759909073458),
  (70, 10657743121272422302314412594507111324193439416128737263741104652108399531743444188531355899080946440554327757288452393991003415968289803989017082918126845152922209822084205153345890007208609815090814004967948768594308049726475889991119054760164529105323200567834330094523684479936511949550808198489837928527475513600662990026739158337991171750524473580560134368039804986546917623175552390),
  (71, 1211648419515746983022454905951521468721727098406402776377711341004605207172292434299434553685236840690485638194959368338241710226252262210440627989295293866097233373893579629935770600321763184196290509402004439804780928526646142485097922582299093908810240253505902114682898893379164784933012577002874705596097317683899067243495879072279180376098130788876693620491621051977942),
  (72, 137747835651101665281214857133235995310912261644222388517872031983418610085363978430296799149912637013479062509959507699346068357072771556813258623593226358271007136923326894153327095947133698403239139201294300111834513203571281781626858328053804317633821876533750786080558840008854511463106611236872449923066778306400091659866263652685914003492834514729614167545),
  (73, 15660922752812714018541685745034165899031358303967612775080653206074255148573721688699733393344331793439321978728672249194540295048795510493503447788376480454865444523315761423965261266382206013597651757186413806894222731476422997087924635214436616309492652693985829334924921710815662427730041049645647752878378027186543416976698364012808647201653935),
  (74, 1780349047995813445870809212861422695652696692083329729455132574223321523216143293228509110063856722913568696504258319532465746828950270524398274876698562073981350108051920756418181019546511300386595274652540456875615366523512139729090579935867708903572810678715860822749127521568577767912937131742746131408383436295697079986182794787569),
  (75, 202443233391453431936638231686329670714241581052311756825252726720382237867116227505566410782491680508153652894437513658603673243644591111273245786928445319879426460944057259425826866503723712453289319306452226516078661135219708660099849095739164194576367348365680346813220749562739821709551706137517893289051700305836461679),
  (76, 23010472126240264718967729423177706321719991938080419531303781024009255209696864758046121227862199196360707350708695289509386909954424079868754949551484311604704386933724539048573238954323717874003535188593429132644175754711674802237284058151659509037725754785622546985473196933381278282982563868528641989652022),
  (77, 2622056134433221051886065971958304046887207804985330221271447451758050358258440403502326768303826294506236814531606128265334391853951324031584619612504666853492499744420325147906955314644328971242488517886103227163687580450964986125840482304733128770530111324185212053347023334926914516354674826095),
  (78, 297403381695590309135235872905456072026044225253163673117520864832321934895392964102294303118730423136519547116236551273444030240221563630563864767087114430856723724588217687246822823854874105412453620300569835972128087709849945143132407654884655138470819875882863221669832508976277486),
  (79, 33713385577305815720414966868493405684611912179863604974420844270403794402389564205260698834988088248813503580700913652247880564753901449332784519751090438285072962790448257320762779223007978450375411762446540186047564679118048015423226229263913816704316851398294838440137),
  (80, 3843677245776920323652965273579651597394105841460707803683017547699892604343696115424129410222747496757848004563677312834273656632552726573254481238409796306631206862882412807478605160479045642269985514434404975317228301528772059825709457796932888456117977068),
  (81, 437002941188140563502549262054899002717686407819903963099460310697776963194678766231700164994853377595034235186449744215413254106690090701172223661712678084782276262137885871700150932022974308288418938120390233962402400960847332092769945737628494),
  (82, 49680472248046279101824813956053846199029863780067291211652749136875540189159578138418284261754381917211213485399342034485334824041109731174818014876590288900984183413670918159295795917097281018587383355646654618453703200755476889469),
  (83, 5648027917417077100238080314657987583017780576019662648523943149728223959894836751528810493483862961570252720030031173854220176024118947233446726229459090221176665545341236752114580289431133956449232197993515081881041862),
  (84, 642107377209642674164818466951789996015625084530640782024725940172537102576547251830068482265883565671038945272775786889870381170633814418554393278566838096038324100313522460589556619093855555076627137902337),
  (85, 72999049881963422564272591704464050971647000655996313124450315586633735237874572860373342681467646801147073925542886494470868060988022550095920282115536625879362166216257195003652172899205391143),
  (86, 8299076581584263353137632432255048026059874948177401467718738867643917776475720898694321971496580829986688935138604941507901791657446588081172035807233352338511344324179186749680032),
  (87, 943490606205492599552547621249792771336191456287589542868754872427766112538382686457262331794543578426665685421298295316388116580303992795376311031944628332755671217428),
  (88, 107261843480996851177202513053642337942667875799669811391772792520000076314848842155148553631882396809660281023178933418211268531446650538143788240819411157),
  (89, 12194330274673230992108990132571346205714504029587968991436782736265544185447476948186922452004978975461458174979109622481761027568222253613930),
  (90, 1386346434935262397156276876449623836011134535230703734104836084567756581945693983421352628881436472757323932971184098090216852389),
  (91, 157611317103539970961853847364262888095244623750416989981350574204241810490078500369985133217436701074255147372273597),
  (92, 17917957937424470764387560284959121423942080563626610718554642422505233228271803428790262891922469511315),
  (93, 2037412402765404032675612200799460315944436767663519980040124449753813152096089024327341626),
  (94, 231584178474658754510335697752967334644651931209074442754651284134945937080686),
  (95, 26372248768989692880434667489225955620998850402886750988077039554),
  (96, 2993155353254027570098043693310726613199623905004166),
  (97, 338264727152519677832863156512955704609),
  (98, 38685626227672555372525169),
  (99, 4404788031580)], [
  ]⟩

theorem ssssLow1_ok : ssssPlate.lowOk (19409831363 / 200000000) 4357049400000000 ⟨37180115858359600, 15939377645640400, 37052486930359600, 95721696000000, 95721696000000, 65262831458361600, -422847970471301661, 0, 0⟩ ssssLow1 0 = true := by decide +kernel

def ssssVec1 : List ℕ := [
  10558949671002269043535285432424856845054255381558045159370634930487820084473135094497043518715028880538330076545227063938601667952805562176718816482339844880938077920027956452261778837875268315261220638713816602251375438473903820202269080196031258472597678470228976745470691702550682098762894240909288360841873240914152906161813298921721520781090808926526743430000637128342845501376623661607757199607688178304406918686251033495071409687018718014984413299261127068766678463165339479397617143812214986340854008924259843309675951158246800667082854253241791671520758434599115647979283101851878217796017599811333595019105961175541200118917865625393463945308231027958462887902290398342330950247106928018080083049972337952915612160372094068216564174652932887827135035589957623379387115753904277008446347499075266336192926689883418914064302418388179683855072538536634419295045710781736165645642710982097403488432960162563798533060420784966536156474239775239831504094679365593408406925215590347761018619824188830398046460822843946251280227315671487902264293239315131217378977880180249797251695535037463858496880915783681690604114031190329909336563576651859514643473864873764926109188917317208165159102980335626202367315910556442534212864784707822387074596716512359579910144]

theorem ssssHigh1_ok : ssssPlate.highOk (3881966273 / 40000000) 871409880000000 ⟨7436023171671920, 3187875529128080, 7410497386071920, 19144339200000, 19144339200000, 13052566291672320, -84569594102974431, 0, 0⟩ 379 42 0 ssssVec1 = true := by
  decide +kernel

def ssssLow2 : Cert := ⟨337, 274, 48, 2 ^ 226, 2792838567494799483693623330107512104071412043047436387054673229435968000000000000000, 1156869860167412860953369952260532685475727845472310350378390156520828000, [
  (0, 43949019592269063217973364450033030745259731159336482977744034964311083689449389770294280639612692662332976390515629431300858443533232252743154720955323035200065585498860215757888412367500567651327182642532250302160057401430954789055858883853280005877258467478636347333514376898669167442289761733776202843272360914498289593593498623603750844032624433513443425523250423376323110467309908279822006749678163848692113520664829558444436647113482354430974885134594471095200854218799281428325495041242361936836281914327281165670079771811605406198034772123971042315456613674534801438050417458212861369315369375818861727377154681544052220762525442278622263384535240692898214374967871393075824948334909242915805354129683862018855703196203949133992820092143660749398052980296348205624175004166616151453927847049254111752148042026074660312433596364562200243494514988950217029663733377110989041201722881327888637700600995119341312442706330013975049390836144860836745621303147134510435613930217585013466558837078800603160214229692119380966461525775108745776289194580237408379543203914397064787234842199764045869887053343743290313314043810469074424542749812176517995757672444886586677997301068902261940517884099289412072052972071636477441557955401200064278476427560632771636151916634708666727742101876821063521873845570201418811658943208394599089390186023157100507780776931576733298583568524534428051021388870211783922368632187928935970592458950217447883183673),
  (1, 156138283123114178991427568592625924296074911164546413971327509387795944281285989660321493756783927568878715271738087815616907187473328851356795571132076785206568232610826940762755276861011845625153941030916740319065217891888580278055081116220042919680786451251771694039353511458712943996773787873899076888910691504900996803843615255371424504700087121621854485890516492455222755717244327723096453899565036577679939361029197313888766156000190635103936580108205114608734008122710954868751391319543087166745658509939607391383318098980670764597888477496034039686370969398918628739157995690925998961914178900700481431374962911802511106275923315470428309056837229338051005490897101472396736399282804686012868684149297016237311523912385311657359872954077360650412205004667441152964805737074547403653144409416134690053850506740652440421650556548337237173302645382257133943040673394186230775753052801444693640985508969347337119158458305826571019863676791404312241024622445202994648114150459994140795683117218622593850371833384942066249177663433118466159549457551340848679435358569100976421809153706678718461892774535257342769410625965652536411186298531472888124578077166967841477437501930319950966363821336532787558276675210871881465818110401693623958368924548547426151039324730368394227456082965337252394827180768281279563373504238289551631785982971799764532334936976308858890091087334876798987677510116522982983210906437757413295868856075),
  (2, 554714614183641176355435782228017650111718289376415505500796560106930627365297264150877219674908009009482331526612070752672534549065958310219708497865833346439780453395013776257946522412235482848852888992029120168915605604166961097400031831633701311536022558282614163629895704793405648646923570483952685628861552532688166915712641533355738609685005617891339185829730350899462190452328450225951004373484244530637612572389792171657387613396845662018430640621731957377473415892134107222325708312506826902510008666972563393484363604543340698121397782204662717164705725805149074062058438709807286541516693417313838477484651193956796130607541531385753213213478201417612102580253691932062477834789144387556869072838499983084588573389804072979312049318687010501209877408774872518253288329100504057713307507249390687667490555177179342318879531778600670551302967993707445999862632567046691402983463447894961558628802425053367605446585422574007200860462392015479192361895722708695958028303460269880619926705542321273628876837842307256243376890379797862528493759316217224136376661889702811356438865049757686390291167643816545309120784046833789643475340029419753395365773632995107284592418690405551709382651132558804631106404679243611125979151042920448087700723736396967967701528968769524437259774909909604610361342605128206432401758286115592343138214324726689191533735201024150983321816067726565598609639705166137709467996821527),
  (3, 1970742197677326118251907667853779042707397944948111620948950169694845330986598319681427906091541278658486879719657665098506330570487354081823293096383483806896145471015082399406330816666515521551831038464129212362848691753924772607895720384291893511750321257164105678020307181575123153031279911999552892261301139746276376903795242916424194305465148074557594574755366064581546369047298414383177480848032711490790736376190302345262409349453761025799681165257960156953825535384240754229390708479671546008997343270281376158989738494986094257298104541193644063308645853594613763864272813395583040712460597939506240449978556976585346823383093410797598465025143435116933568439816748789018480959851663358609021935144610156571393699924071556101129945584436189617730384377518075121612192338181630101258465252548322340507813210931780665429393818880199206851776422271196845150066195419900378819379470940235457683096898750312883791716113256766622711745069507856864899289338147961290543195443278935219351955638883579733573357300389167849269737300000956025528400636705561330559387802446524425441654180151057009343844662238217987903631723891624590317766632515263473905118974262930847474116113180653665067103587512582204018927419498947885461536021747185771670277679345515567063629465672318327097362208817904987173603794403022102899633230143696066726223852085956878756200799417041776988095162118606594366002003248853358),
  (4, 7001482763084164097127484705296539655091283742789186080210308806291607434349770424717115787686748749605027747006744481966940623511572144361656981766472204361739742455795750694480038857904721008094679310902398759351674519193389876605851574775042679681250314052825884322624748402540729811163025406526863502370347347818790828681026408571342052725016782242448504277804316993613029899391498870272171387421405747579548407597062462803387468481026029573990845549700857586762799141288055857371819931483139976952662594990240788856227132398034028261171382399592806698104163144152588933630107110263105764030547906829718532281002655342202979277570524574662905358900548301790159597775368952816108217485892438028120902173971278945920281939398714467596455077914147753131942498991307784470359791244866112448076857596283500251477190150185914034647722162007128191564536518589491767895675651562531271260332704951436072886018366951622103588319514599992875384669701010597213399554228484438015329099348720726886708040986768481920070183264529662745701973076452394658145418645526052107172388293371182180739783891848512322124716587414548773482086145999483605644533821134292350632068127934493891453201980202210036301230336205695032295592954289694894350595500049038218019374444015454377114397561322752312521374578164113520874260932458678047479795156080358240766837855656561907996395085302999186086572112970421465701),
  (5, 24874263584271706731745286582399994769757341275530312312889424262236186841830346198861435360522307541393498930243725686732908183880990220344473849424544212715952885568820047971098627144444631040963162358427344552737996135487357700746809705393626813215067731818510770259260009456675703171911209359199190760413897095786564947555320251243357298175981840787971273451140402054501351794475111540159190457101434830572300253794959899983133274047817635100661611413706733540391452960483040415144596790461919996113942502767481981512988089669066863635887624657736542272506561378240624345131572266833488245101989626148795372321342023284766462115061599465622728549917532849351720813375126891898526702257545836148277087202034744157180281959321766702414732402139437859558366241881204172414094847605058903422112174925865635831490206346721166064375429821622271429044610161226988583093789521486039559265580567606894831303249471024215674725606416908370306974629518407356026000667761249989018740725600457616871434673728916934401646470768716274547633419183061621045126407588653451640885865255386745020630138674753123020741758374259072536415311024509389178396281897590227606974106085504742904817598785059598087054752844962640842011225210024710403617250385114421818571478530542214698167382651453354116207993710338640777476761770843466930157468962585187048061673822250176394546879034907623697995732),
  (6, 88371136485929385546449918097763982800456230167953406161971087431192802744251913899764586393022564483748630884857727596047778088820976505513581599480100396847944516179458623250136939559867482859402644908516247767487027755103216195558666400280739744032369646494860913647645948464947613669074888195028817258472563013111373326637070771146966988117498903222390388121709348544295516025740002170463384182042901232156829607310402644601729192010457689737167185634316149292503023131149468935269423027606137723676940806344470516148084220208415127196665598484839356358327152879693048640501197131859737437002951331917260030626459069573608507454250236486920639160590044990299289775527399339990830140392487973295283717640829795534117833476217191102390826988308950486098044389086069705145080371768489370252245050216522327531933115851887809240508336335475779009953637594837284552825920822087918602997020585499074140973001734073162542915633092251838613741222847020373317599904984570142200914098126060918368158611225334489786768217800329730109103414092276999324564524870172385230790725270130285058167055464583175941275348341251480248833176796531814602310317109323903096468316577685767331767342656073640452297069340069547687825818478665901084887292514248509963737797206848325442530267600603674885003810882429156666533888291963745930881267379268829890528796885232446451536958254),
  (7, 313957345404714051861540534017730226104649723307880622956070629441797556246690648412698409979698084704428591114629791702618076122577962191700508064824212263422453606880960221828267896150890498156829313081692424451930617035565847824776631977369032215049635560817976519222578777071653460221950222872264303881757091462758928152338000435086951190350242101314987369415414963094309951311512968324520893847265082319064508707639034999827329487441229073151848381290836794596200969562627556648942774916599664124022041075383066393699446725349947666644262037164907672162757938198797812477678702679894679677809119980087051629194143519014800902019461766051656084508140689374610550680839724393195559158570621900182868852809284526475724919039548102706245351222196858318764249392091233775229135723848344938291732650813627530144210857119908256173175538392953735777992834582732094917378543086990036012365718670329805957542584770441611410346524553424790421295048446099459711278964516615844848174177313652683263605014169796474989592502939001873762941241324800030697666672840170900431627755377186480877746216881318908300055394795402740791929384844846195197408180650011221028199039642314815478899124663799969911114646262771139532635041695628037182621517020197895933793448002291629455740472836132447863079348128013957962893133736676892408398273243024568552521674195903),
  (8, 1115400555579221204501793828064145323625132715889238791916933129193259176372889128925861114456581952194101901099220255282719005761442216180632403868720253461200967720870572716066629481116605819706428751975359825828081276100902124488692177119479331557119307552971423861017944591729642254257651170392430171675919301630016117930988711465757188846805672988125927975779367605139472373353138477554791095104846916349706438307246155346838636693269863324342900676358572558546462158575845439684265423889900641701574836532575301682369069947803084536555070362712239157933258497063342180508963992821499675271892320463902116975458349702481358192385801203833106412907618860461420771955385675801671273792677478894367964930858028481195372640643623361951933430988582678295114405392160073491706580215765444010604095960080560011085869373097709562719600234181836515380746668382544229286187013859206077292202353779139169999767649599571402698637057618109305084899038330437520828757119493776963401655177110018662422487058250076277181970382240784661461573129656120057656542401543834923244797502036204218154748679357801120166873163406362956889356524571390663432262186806085747011563813194511888826476896887173874141749362212688835853528412962146924456982326295167967377219183331871276449231550358392410177671217190221057454942532316376197753916401980633458),
  (9, 3962698811147977567166101053658683368130982372751840585738609694009181714717292569306516235755865974864515613695716217594271289509474603516001901074107384266366149172088111498464130613325654094475698730227170998788454601094232046374847118152122076650168963065928051793390864982426621608764655085172284773690618231501600944742917468342339343209820774361319829739158821551666086042864072986473030215045154512349939871431519040851406507527497328566695464234865557899437768155006446182605602077865445547537526685010516856788814779812739306105721299580412544315957482844845795095259181214512595410282929644684347460997311980028262357065737990359298383277333224796997051974088506352888007872648819172151247126659483171754122996370924792853909531018063277632316389647853374007190265612297744249247664848835612554055403700947599580640131458005100578233419792954279912267145174017052213166071656705219418873549295546945079013091418811578117517122695960616084635936295903006024572564867803860587168988545085670887642820795424943316336662452271567464998718089805092303361240094773929400930053250363242478835806471547509441195794292275940338047856479440443073940547839459369333311744237140912895339231676735449639307134671734420756733943088711257134281264932706118786977129184895137746867973928930960904760993646712027823922201),
  (10, 14078334271712526838523645458582520161351847672566437711294451325177243006326834904297286145879414754037313447398718422016620653610192858341655270144652150755030716780559697047565637351512947694086236567170188887013673474504504652069476929810445811746717751480499472599407918831275048230656548207306097990621248136448267360186965882255708494408142967403039369261302552035549757310566714387514139008625425494666635409940279269537507869764775972776059983459776539032454573143789170199558894345229094810160146819086021226843173026057081506893646634250411930070402309658742084745502714191889973035593765127778377061794968521457123190158777596527260678282668808248795513529518111890001994215507703537605217269128042632123559761602799485887936296961295914671216605571416221585232717827026765276915013322453623411222340778401649363251422888626458526367402809451278436664312412198959688416742279021308032747933818465121713961715927925116103451180016549631414060686079300802817455517599664177849250005635312839650087149181137222729853360880233463983944944391717386214512089696836742959399234498199553906127518869476044320444901933888872045832005782744827253699332995840401958057936195677541359785023702102963617100846286650102371910143721024536142182837959457369265144712531336775336537573196002681960115693856),
  (11, 50016290739246077819894031880202810433712144185294251282216023139538756125143423849321219593471673215629920995322600103089126527327415197773365747436307210442725047755339285838890526771342553912012645708772513693721071240448692935627901020663166810597624462856665561644690779349729129990913644579016856359427827535733960952585633074811102431553456576430011857236924566959974451368963556261396272772469319180637754356774687647893858402856969857460456211325098096215633295177502755644315135988815183944431022815238450190746665580823665358050244929702692056883780495218626456161941871260044931985558040341773344875198581917604586860184981070659633558547393792600542550895806896807670827555563468766601955384991978345582108517668569953059332779647664309918363366760369392045289829319599188988247957052723952049706889388110225871001055743626097145872929778900673843598267338646238221066999204885494697732640039742654171483211612350673271627588367506958090213026097279598769832031492259147992718599944859725133205508434209671570931749848270811055925477278911050527142199827152311785467364675165468667035051689415926938855128305646526684076338951174802473296358437343467381935756778766596856752936143533016687499990881397127968072813408937815276485471640549514434242638111092677682592175331161),
  (12, 177693560277848857314128489406047623372365955551571086700391879520906422634671783461316875397034936789085246119438296264905035494959269033311852050941416997430420123995761836735856719620971351959747048874466314860245290236044142707206842410154179600260808562695722836007013336308558317966490384394054896659609749356744153610322854822763755330512940097973458879527030370670344741352678540852429925498178296035075340543046912228165589944947778692670519786123861657443384917214305856578493978044437580879542671934453979397527873113760872670997720479625619404445091883667442334752434921243508278124565479469782501295577303560097241898309768595990627061768292414939031371109347924662109026712060533941091693389003806821600144260484704725113140489447549233816643663371760757289003510614415024547366873325325075201097025839844244576011759775437296708816680778561244427951218635233806568957064343570066741999585489958309684991585237387421904494526554104426549660263386631280340993896694557318077753508791825829130796916272008106447949971742455932818095077213554511571561603275157246697382870427077372205182324421877747896120991145477268918718360548233588463153795022123201567453092756025646228490052830698561104369559430418349161022673681700525133670969303135214895780863948692170),
  (13, 631294342229402816697796171260788822765588402729619077739751448826149962382347570337287998724001306420617316492358974841723871859406304833471842201049167775901254927508800274526892603249628721894118291575823991594080136069348200897248190351916229159142122781242993174522646243385693709408578898805478107170960241365921289875124098433196338604215412505450104366679271286408141408810263757979594406830660566215426604263366996824531987939134397596970927378757423080693150094646520122561169670711352858835237642752100294270365299224135365991285771504213554509779582507095872522470017730814127248569904586698877408589522723543500428490820544849695619022573678735285673493468853486471234345528859305671067964380417875302410263886200614311855373126404716138088113777950580036052803177192196459756583490978165735983372714954310050221100830051614088109074006698350951736935013421374888310995066068252575542426020940362670996429941131529769343266074181000488596108909196858550224389350759487832092462606345567953254633653272241821605303646832875242328882816959994777662955607357747907998458231819808903126527011411025703557049360060406396864666048837751826996851203074432191123806442938117308095017117598033498555985031069659459487228224736078369043577109592807441528),
  (14, 2242808044986967302823534693511802188273393027419234153247189266082374534672696912582628414712932969038184838322254429002056733475375818616792692039192504946011641778868979684864492364572680391078862955948288253035017615079326378257993478600354441156898061000803106438047449432891910140852527403557476673270271991094692590512314090984838092499399853546086548231812042343213551154680627315087769150290927999460618717604797756362688906919118347807588658860626531640635924181555173780980670996167402739481396019076593742055333325959740586690352531591635286484101793571009532585027017957105121167909393638363788375584846343641945102569913086679839530903099674084665195489888097726584891871177934344828538942426343533215269443231430303709901875124126516814005777473569574269908105433746964998730229585894776891135106105819303106133024118477214732863300613988885703659371288715999525073331523394475630466278870825437039430665410646060902542580775879325181975426574785864268776865083048355720593313830889895288931792113709395751956727665926926063901612037695544674024424626079967273149991782422536842457100800421672657267175310956998208045991504400786154442878371297858930705005103553082018271554487754470386898873359382127271503898496980053446849074),
  (15, 7968054820351838814593640856864595239235265264423011582153368460828979014174664592596500493370519061108488444321448118917585198399551686421517497241572329937492211967561127357878428311885282178054827193958522619202427825626784239838347701940075974210431720723430674297383885268357885113069968706372310774961669298930907673996007883022559917405589654403100511752059852110422609094287170331895651355305311154135769081733409592309719682105741696769327794348017631561600854789136974780171961234700430215309304200265060255041764625572056759466077737813012592951195128146332593152178570388238784508925280774952036143104863004108029321385656340884100476416726221413514224889662104822856552200836574058701458330142216888939684388424304112190478227579980068609174312030109143458794682147590922049626819089777206831411230279727592506062025994074246440487508312750846254054034761655820185084135663742296640118171520718197045172816732515040224415696778500085603601637064686170149810848781705625257282677438248726141586077743201679641528504925645467581166062212811754562661617271765205757780305034101781929821390729500471166179359144860619855769234157630153996402952363415141543980166508379708212820311183358592731651155970212986326912039662),
  (16, 28308217353696446959888349145569069768569465670237554427522357987904176726004955763346628240168787287857153548454722699779442253515990486985561798437791276785150761499172565378840338863940873900859820619382512292818322786773762220941836552906755590519986001328852407681474560466305903121726969098163577324865614881956248844759485660448159649301643900182709153642894832248679218122522573851520770549081223771253526507709385752706367305283242078551328831259982895789818612684045553384626586349185165403206464398637792821312385544119089071648549534173971771709225888655813442871120030197670815281681743272714917811306849927572761409708548088182178305866862224120571916619721346785452732808609088537212556425600269770210160647599419473398848228368039900105189203555364756824371559701582657822399606977274353111860412255858549805451167838512720586595448818098657872627180268966044104499974390538859295632532303386490621095955256766409288525756944825736219366429582886916349087252535236496693890903669688635453276105439200539362892045344965075071067939198723464822251186477676249725939280805321788655703401116464623246068501748258267605309368662715640479613108100124962284305120607664425558761852167086415652860804160820),
  (17, 100570991014934370674560850309626120654397898802960274417030301915317961663135371817344788652012366370111661142180818615761065680761318196850935791675349815986494135744151220554965352485927565328073572864609144800549860863327422270883538867691272808412377286266875136993904289284891268945423763265994508571792641144341371052628967274665040106449427015883882745514392458648183389162343020057095342113678051667871630274002029009249021712852144885818284672718770621234793928653008994067704164183211906217149817195879678290848026664891464238303695115331241373168631808999936680571537558069565799717598953444592249660570107090239842740828690585727299040121405086473486093368655024406148144243568691539927566896717853117754592972560340069751091831602639663001011776508874260506092968651608372651684312154347095546729807471647260166203695631556031368058849226667947551143266617266574686621680919795261941557119005779861197081574621379356080074226831738480174274638481829773282052693807664086387040488993044285685111232735520937288293764866544953009644802208960793209519836148312133623968105868700410583620806388294666913391247348765345383491184002491457657159924309892953697859811878818080948199284240258770),
  (18, 357299935469279612741505226515052557994060218515245262043685776786069971191520877402129445428657442006498546495465353076482613036416613667489970751568208696718961358213255443501933974748929578042769881168096904073766253859127601827868579200928058530386502138026581035564026841250838018215147963225490241144206132657334112423175846681907600045838333706811361360159560264232822309224884506651326256399639275237433469843104167675012745733469075427288924894213601579681085239821931586161370432356240793900213830618684097635853801514355670420756088670555038090515019881418080853122769139266674082876833442163195044130164217756668988373283580725715475467432848294512154431227359021646214187397504204341483116709845196774884592863572627859687903942966609874706859835907599257541244491997855418535747758390740782085067486647487733559710304277148170447150157568197802477389641685051874847408605562664940163041268622850592095006089722148681772346317131088543006522165654571750577525416500813989096707513813385837448953653860902270047459342451350075958698529234471935661112405350521694773666009611938039941814714689356153094169999916819271604661505959652673939224503906748194428336295568721135130),
  (19, 1269384368176245959395150558588669859695344465376526209054779943081108126504549024823125497465019300614480878037203670332937878969007576541692013277782566748608990388238934498239750236155492679453864046365996302063785541701888355080450979334162831928287356476806858771719252146033422920156894764990704483249975045883239222429829697275504690715143002936471296683859116231411679559298847354911349893133447299237940381274260478251453769433285841657532473366042363240329495597219933833042640005462305747569457756570868260246566667879050237791155296300300839931851721374140705890149063269442642981027051939048100793059847289917745269434141024243128877147670272610691024892130707032890576095337405697526730786240704177998763163077803996635062927046326715671869735942510841386052120076184222415168071057401915152435468153405260201494829763221117699115421226673904761204324441862571806215619723980887102193669406777857231908076847302631581417943033213373042199619723683628387859023314732425492480081266861209618550977885589271734890237145081471938504352730252148194065172494237011485663470358801380109171290596000721128881514716081873095940488628501748227551502612445954195190211),
  (20, 4509759208419043490939523554206134312686392491113034584483146276615480795916746228373519863239735423906573341795233855888415150127603315367382953354977920204104863547095717435853537333437448745018259115257356612208142602797860638827994951625017108657056308462966781889406372155846413554170298811145124342698422201800413780039933248395419255752509619303164545089642481917321663667914129564947745528799675339117318416311616428226421557114341192988496819821860937553382832390062130142725351267379969980054475198496797171052274711545656133195160693979720368190040897188988078643712561937230293794498701578564295888183290875491756885924001733532188443702053276290602473795268456690715685626362723845955432414357106607265279235677870368481771847724557618433951480527118376117244402526365513265251561182426008949453548158038364728634842116063676057317161513169781628687098242795609808627828811770976645076378673108258804630846138152220042159829510534620362014824332377293844524391880782576182017395433806757615547362310341609659422357884381447852219407820998037710859878816918072384985570358898241076401282367809676976968928879679423616112677986335440981121137829),
  (21, 16021883228148081801771049426433873947332335961825114540328220176860145589802182719612511646804304122740034794082588783247885512723349712828299437437673313146994324091109290021208336915834126470728801751590925946409928845202711910111144161300217434568002313040718403962287200636500964834131632303534281073173764528139593462968262614052043498868182604530332190294297140934776931180490118078805447688387935123023939048953786785004353433755052010515576665371844542448758363978772128084284892420817827528112844895941291695872422578185955874448698349267355826918567360034199399160062298562130501955449834618726554908262444846819434226903096041811565695199282382419527856233194219599940484477243080391144562480909951895137765484657774892088139096357247093881090495787507397285151363116268742235677041255800306185193547376750281272468855216032711749372681346588926064901521131172955355186033256365938148392845861465365916247367428361597226793530855121020649642341450457167208855861736568920795821906262655970729857256661643145735926017709114522997371803425728335277157198098321863735000609528333181133257175053318057700573091755033176167741573958082),
  (22, 56921163704364985630016475816363776173505528336038274906209127708053640574434388028423070774929766893264858152389870161353994970737857698549524026564253507178981381310413185928238842183978341402267783534733632596400960566129741956119533877441422871718975525149556149432339812521750567872405430814434646330445918198901329764053450288389093285288316416326828524453693360961528339771123665442283450280191800508777154429406917927531914865292695734092203166797039822102622029020115793844613118337572138473023900581011916710951149985851849436047929804558310025683983316806695097363693170527091654591824812179596523646302890651505323947530069518643786303768879491159389828123147256521494777231062018420299140146352075182261073198740320914939424487714159859266334466111532052674505655660739417054799914053113507898329777658755726721834970472945185298846332996690988780285597550275213785924889595124166689927610006258182448858246464711665564926413023058703682190787044209543200160308954547563640453350193231975298604629993559696536824201866443051079260179712499971930744070931948973356952276218433750235148715315679073626036027648564646),
  (23, 202224596905955611024865924762172427853173647540518596795202889784108733359283868230259602398626308578934906849227371884392196628927198810309843575799047899433827594974472313128340770959381218955556711532073080842666771269799562519474771046486777355312063338115234358111160961587518724888153034218235078826815018758960694779214701989422169659714037764512061605069159012396547106276447231984919272508569436746707951220182524494049544247661509252912125883521444416943635160983188024326376489015730778307612171220698554612814722915957142522642060085783977574085741543450369077326725527260820304873041789307785839795044713397447204046835158399329366574178759103434693683419142140641136881217691556000428076956480693329001098640663488875056114609177248214267462963115608735478374168897909768628550909108647490559366404808274499784810990802582666265686217843744823779254292171621500013681530095691178013051088483730188066047427428109694388398571363711462734830357186327786439916668488074258507451607205277752971690990924847082162715753370614069969020327378728205318552277187281745709399214269843376730859502263471956297),
  (24, 718446091617736585909758194656489240631591052266679022156051539377678603659412894135138961476362559489878407678271156822873953682456331952464907686001604926919836861242897483240332550866282072511381077090868833328040067126458822401650254938738441050244970345485840167152393591742347333203351603626806605091954745595561232614286294331469442235614825874384110658572625792083177514522695578248073643697714401865301127262750087248403013816948577575256027638945329808681494957259969724712282959574049040649016255285782359991972141910490347680807440003836905983731667637298501100725261992634007206963484753055356762039682173934886159146071010242132961308440445381797809959323207434287192115920105477969029056896890355588872396266855634738637889031983263337309613923795769762012247408003272812649636722387349582943778491686817699934184573683875879378107481508338659475304116903644223382089071117894195898042846299878218291402381279059020884827125086929735444957589022940988250561051184731431689098304156426320109656430461470986986589131163244996612576149329226766552254316232643118401690008313374270810943),
  (25, 2552433257170981863419968302448186305666705217588546043434332389614825817740831864311448857485425505448229136294624495191029195572504947977197140903929605042297019361152806395075680229077063462098361027741640143817090938197413517654475084069590038916746063169311527866866541472803726677011975762627924913148703117488646450707917134808989279511329625334995125585274013625281820153217279943736879952793104651760053961102340846882329495419746615352026436838349509276640470528850143792745756169140582062143935542574978004086267210608281871641672195022841623629534386943951801693374848097202215408817379037588089354653669628592918912337224224925047436743611681209806159803766528415818441817331148957254052899227398056413222184465642773019776408657312905759392684768419787737898720694340225569669851727897727218201890954491532512022117213078343034242933583976576510270304275558917659571444685272541737799554204735252964718405570366374558271540169177709055590778046716170875853470239122845372465552336981011310668285264288594741889260920808814291916899871026865117280021143189906045573364464),
  (26, 9068064546976664045345615869735618395234784890094722852304913337259598277453193219619805083459057957869203372838715495371027440331286839022886035188813046477474117253381329668772228858789317733338943869909767730029192593016997264967635140688384334517484861915552389877072681829579159012784357298116806252093600602459399196297842915674702844659350912290400311216017968285728686102464108698386733793556384773432296327440181081447002330622731740645500656429761446389549190829975259754895106101067869536689350776675313479166752941455228256823228746164629923127753514944591438671626150921658071460164310565341048736781814625524777786066081425120129095262554653491276149210336190164242735786633564453226989824381219805336118901307398236468866776513984778372451967957205981196044350907408790237305034765140536030148282850271517846288702502734353675244849000754573096477518821874326966710737771488985074500370358199990658736301055845116295980087942802437188859654006979947921939781500104403308621135484183195027467889871456471845263028627196413443411952803679678738268177383392),
  (27, 32216236956289861998021762693638046909096263768271920654857301745933278372020760893488416888274193985399759656907698548547665114354390909768580635378633449896932638491564246894650697656229388125125317307267941549840171808009641265425541800991179367625835952066276329300206463993575684989729747396066640606047151767697530362152754174691263073808258016661317140090254806139919426409668997176162168631363841886709525663924404291853768676637351729140363443439520721100767733201818265468432066477765412098107823708148129096872767922562429756338657720301801232421060212156437271885423353256059713523496913144670129950661463824732163009462032774591838771859040492689921845687465982552283781155919428886177522133314019586209065482800785367094467799627493684170887057245267357224224612076127366002757170203368723386322189393354608054190303655232278796489940003846315650755269509338066706471218382666572419024737613434860553822347298876504086222265455633407587809694783630953944364585715112114754316519805817159174727083514681384833100636726178278843019609077528291),
  (28, 114455065714089208476955273474253427356104366794909028665675882571169375879168089559415537650985306986938495501631857637461795869009474237176180492449736369653595028564880375990678010311645309560636424731924668484737750191050200731211958377232805216140727270006870305950081246775413138058151393339008001923012043070017739101886472826126232013171382048208392195551230277604459075821958395830173136075838720200535748445966623927946773251724378508223484801707685685413221669230723979205229864506512502963331312669283572334073812771113499703377486759082461713756920092104797094172358082705328840488824981755159853551438808064994699107389911337329120627799856497176931770758711368830565473771415215663938138009196740567765754045833747016325113738056081161425484090692131140464150856208057513116515681431219594837818916098873547252802438481980925540944061929914474400707459613980182685913549504173608286365324731413684411281743897385562105798460679910699497103430962157848614235264715051312971390078474132574855968081758478680305195733893827466146),
  (29, 406626077570454954741859671238491910671457556229700815697739395812850829795934578070470655756399860745412750523655125922537208783358672680123577309706690988568294033331370854933616990619943399425425044782132987410029124188249485638946377713311966463106229877118454325898301126108525523350016335115295555024479308879145045240225466593164652835868280791022238782746004040976643231225879216841502103375384504456317592349850725083045265870165445498934966950376547954943074350458154488132371131689152446268103505739032947123427044521387416101244419326604629673527569750348072727815002624079099857520603262079796985979715231312186592192364506030832380283776641604572748590261111560556370171950389046772548878269307380874907407630826548436869251741147444327052141942880847949773142867138092823556708026772949396739716664678810153804989469072926381370157625858067810162924843940730866084913257297070088673644357521722996691893370824844760093368819082486041417691966608023133916179875820745820599296286872543846391750962435097357317598),
  (30, 1444626027941538614704355538801642270598583721446344635855904535398221185825550464780495284416190354316598037589395962171734313663157827664183417010037185824794807495533128705894177006624369866998341229171043918763760645365559020816612679347862327355404469864044549093110882691852775261399159585088500156403127453610143699016876235847084716563871246344454456300736296457096209445738458679188004746042537794265842998646184035061873759704973811506319112270562929972467655028941252359693281855471558794180143821151029532173885402012818155458660913464461296382491268423374632546126333942729253533906167329341216705604445118180187706507822277784821997778231369652693800928119823973456728761327184767589304228149186393128272265412382010741415434113216955579004342322846436556734038555961953254615485247258460632215143310959080653397328613228481568223740307857423139601997014427540803791622846225615690078139702531324053238417629564368936406326163352826425796390232857726203633530506083298030568019730243297173506952983),
  (31, 5132342650219175366251732758072660396168806965430504265973699615316331017355045377659904460736012207466151941506460235326402507258731482332221905597492478812374588613579966226312496305451008193646612325929788941104891501789294812522211092956459268582594725387725009368003898650505855124023285466645209523252340169005481757210036586886824087096813838752755841861019748405955352283713545614999607840468958688394344203732172131073945809622676061686091240814638603294896067826856487451841841813837814180530897288054103869864020127351204426535747952858326873237668399174936140450652709456092714983823570995098309236248705580656887596236242068607675345562169716362620033322133270258284271171207639608346039729356737554266100880061230832103680305933027657792348786496966733830122341368104584174127758413408643126857114064346763785245863816022288733992407957857971051052124865778656867044500322146888285853288362598792656178099915585497405183179224821593598746160445345343241682758326663092669657683796811),
  (32, 18233743937724879082835133054887891987650073506962997956855451027509345388470666801316959043981800540691385922293115893805461775865166320148235962336904296315364272651759531215203723343479146546133493475169841870892943636067393182445952264113968382972028276628779787197508122838079462110276863846480321474905901283738828370006310075118628561884668096174166961664658624583039468046324516311904485268639788493970388030248880555737743588247393811432494113366134509066467133896896373850094248314701895451916747384736179987359502463591564752288128000338793989341794158753731843294450694931152507239917072204099028635219524759389677756965944397352167509884126067314501083541580588546933058776501846097844076344158168667109470166554032659121006183823874110469762522426940396131471819347595356886352366381695903928485403983565020120324155120381860131115383250359769386268922546394697822907305001285532864297775018302448458549122541527409075163971746893629568647635562868053704644937731807322),
  (33, 64779271503299966517449774458228673313734302189905695578175842727018584819295764103094574732920097956765107970021355352289965396632343298163394512784490034943827588073578902827029298204062056789996720084633854268060571827525867682487224799239279039618884396479051716918107035808557454865902192753878071469101504957908089908496313069178628426116069414064940802864320746496300175527783190479805822812044461372699147603549053928439355878105989895259502223942567791309753966086155281069375414160082124020569671492676288168695293819767130118947262191568195232134576695066089755077268581971271687975580618162772526225165634034629681500988061146209334608263108863699219962282868465123717405730296949890206111729047227107052639356261413541525882892476374557581833731674862337915868304486599255856352501285858363632676609013042592576484853917756692887233001279285178440253199469270842603721282438190039983445411738816850608874150707179183907600705207823510904259070650795054110),
  (34, 230142203972508550742282070051065279221535224087207106298144118730330386884351841743300279329680308222510388882900830703978930380559140663205308593362165992910419796355093065185160245141574011734939654505160553916626070512817390407977813529772145586618807761233124462438821282681254120522610642437095909141440280909195562839059639048324634444887930750626770583625764357054954810674088467003566718766279077300132443938002622806420036144448230989952968532903310288570636444091023466709466172616053565055944486581582332581815295261307015799449871679284129346449466515651672195389284129296368656642595457687385599268065857246932256438383605004964518070539166051795918154836479289066131350652753546682152711612665577180342920502117253343990157536377406608956081673414369152652844934878002232866883016982807456953976771421907791269506989208415729734173385209364978208886661600331168464797942431454099791620308059591226384562093241826795387607908826747520706364),
  (35, 817629356122420302752011257057951955586543178498134293106141334730645128662539483926806878125531889248807269079854636427538570711567309536092426704278653470108800950161314671684125949449547431315794489876785433426754103081149408879773429113808737061748230689034238333694323112254151264612126148820674530310539268604519353711872034175612925439901096269010302429058023222456747749155469868902860146997513769350621471739467350622830655028668830708237133623787573020775534309089076565447185208426945705593851909110041870075208315685120643899837052512665733596912909633741513474286505372850746790517076905576064517375459857541423224360791688144866751637389201956691244965041954150032228898530445560744010091859789468061559679969353500302564025248146687440499713524587620052271323752332405141437088840444811613894467723425568973668195882028613013709318011971292622985813299831955478413882409182926350423326902248574864752071564228358524961119884),
  (36, 2904802997684989351363095362813790299189080941806052594822488231772914991967483646363201801299743901114346390339548566015393279406813700803811420277902144199242044033745397157937952367296183542034810735181984726490687104592206234297323326861986390153352664539797646980715025277007776420369133957524366763343778460255048579937365232274805818537394816196652848021677171186506014258745850417637235732410714961950952558039937014843891020199751411756457381710313751507245036196020169370698406593731462672800354139978980547387887653022653713050796158903127086090537278793311046722831009718534175162427925583816139407785602548025687472538699028499964608883449631167076783882639828407946732515490015113271051605548826003452466622909055150490775738345782751859935448390672287635504090250056313859803362359268177149195088724172651730178155785137284322489230113110736709546217879184978344315120519218873068705657924628664225014976381422),
  (37, 10319933344096161503113845593353624604976491745155629313126468928533494557142534304451855947304230157875121602295336605102833945551400041820786873471954752426718048729217011636691721372006806589231626298341932834210150172405049584191946992197901916972445020698997324780602224061936768639302835292835912484339452815612783378587438560852450713124039421564082307473978833192451348800069655384406133256073088080482928127981937776030968889643961279803721307032755997085632966697152509170859535076550279174457357194944087621005320704692843734529917416304116589596294315782238827326721267586411352164071032524489071697861179905776665432544222982741796213491371545547023424299433854451464643738676930971253854550746811544523467520943334010677982874401758526229823933866146202344587224895356697679527349659221514220978107205869369106774214790252361632426057679172599931444244910394544766137321791379690273586785411925935),
  (38, 36663768355879829752246641282033666460110381085100177191998472382769216913015360094254506447382844876540607252531634485412023778314398500654642724286041371957297897407961079557482387828145954471709065537738759822807862090011629503397497743080713928741098838104055128674227804908634932715499407265150805101296958150538963698249485693828681218097278744927463877541362261538572759167767073547299122038801268042818784566079187713439486619904474746351637943082821765134299797348177084043068664665715126526424433759990092264184266518163009945368926134392331735688063090036903772412620083558727421113510163776252836033665443202646902309313443563242923201398115515012822640330249160776290756411762655720930096220598896558980036058865362813965033823743088429915317748389153006231512846842093327526203388193686424214092908469547587756410486889083876606222439021424855762789227818218555659428555001289503392),
  (39, 130255871354307223527679018396105684232503495980993254448771069969727480899078955524766266362429849140414032335867611626454816254445740144712725070114492254295505437539621168090357584745738799624735781668998270613740907073504720527978823142549523699785098534327139216671200136859485870470781392285278702693744546820468993089378497310553921445789088366524314712308118703556254931924970857114976264010264114140699400278671731097761617459589363677326498157806123104151556675439973106051147835659757902986495603071226821506185308583609576475504698947110788207423097953540004769705075247518231392093444185090737159635075707603976407828550456785813164280987022678541816227516428732194125446864680240477355786871988833544298397479666314409344357828410720583045768091724523963556586068682912567041071455096310144617032523978128005493532281120934497361317828751842764457849845067084318775187),
  (40, 462761815904805093553814243524793596372563633321070422010412196313821828243411161467153698319283499299594922481595390056198355814250146820012497075297021727769655438481118339726807514428943834961890241610156610549729796085307880806135351922807611788261811915979343494333645094869794974564110641371796670092405692972715338065135936070717029861592915153863280474759340038282848592609513755353244810793224926824576839561389554818083067498123055226625054851773853288288254036668419781336246494161445371206059287996120534625786932527953279260627430699688888636134598462903756784518303916124141743039451305573063211715581833595307332244345489889192782091700380978593577325851502960651989997038349452643840815032528272225954055163879962151360381317154018301612903425779450451671625975461524133002381023138799553170430810109162897226996171136273353651823996322956434152148918),
  (41, 1644060233390053319672572764403751716236486392987346642387865408592505530763094358557571878589514871929083223000270981319962418459609920447521496619728997643576459140206763272716683349720708497632871412108628174800383259056303101659175129841688489202970477479527021808347782254923156707330562870763425675791672133797295632969303256828267438816341376132027619599871302670086042062216349951753694384114480776820903117137587623666815942742552380194753485645663628351094571365024950217303168773156407280488511983465695971453655831746363065643859271068698230004231826129737860754685158481501423675146673091494932992652093917285808867631442991560228246911126405604375076700051508781270234859505622089622408802840828599240699789470629230175846719382198528989343976268270121102589418113796328527507455406024330228223592506527156451590613989695941901705529927448),
  (42, 5840875279938861578445733697099312335293195702016620680304867359064174693880122221195103705283235976789049555860755283157372773270697517431816435587175721749964162609371028716442581091088743358710723314472481332360767873083596688419815518807109279884157331920605431277356521737331491571176112916310236746871161314462407452132756967096859202470059710010699791356970011673804498157155763990927477222382973839059664991649170971669117023847785156304388300674145426030990017493553954820201547834385200466013344597045157698124703888962175887473387864038395494788706255481015842577410978879454200240589402249560649157162673215381125464338848084953587196707531219183347684518079124565393357313322883421257295572847660860657287305254478702500809645026715234986624917922754671057740007945064265691789408824274688323821967335533710122620678130225778),
  (43, 20750957503205613956807323570133750842531559107271695746501583764605253476317670606845872049693014667581299126912736704881714444100930869962921550725801776689150889137709537473756739625963085572235237323880627027330833538290636789542854473910816816136778852202167826123430792446096602929049651403837114287066555911410197632303048008663216831736956971682331037495737423850831786479289986463958602913945911458235368931822209237270109635479784057852097927216226743525359405627005050971968034892141119712461184781947587087635041308961813542834131464024397725272449643651887532128071109960273519779456704984382119174494721614894572900877367470818914038326016172146523791383088654049215798362829785969101523883034484046141938045548616704363206881234909614196548768611054852378451765240825235932458344753132817497122311367169111629),
  (44, 73722210569846474317072177378427081047119745592091278138139179738254882399230419031079802487944542928352813245460253254029403272026520288037599214492780736844976697534843395530123175889926619671726335063839263114094766217144900245315345933822924639491107734562461585523809993374052026379621485998374319545189615947149937255491175847142646952983945182162157748323847188430905429092341653461242139733274180563373773656944111220872460197976846091781203674000128581310255603623352710600696962780555968478657431346344015130818893157512535354626868747911618473977243828396417352621058838582858572323558023321574868920619487823991195567554081660233054087779397084459824949286365084194368796039711673572144908371788978236508858538566146969362699636703151351873378409237518908724757068148228643731465102839769943966801),
  (45, 261913905922904441741650946718874170383343407950088877158152633300175577677217903553693117570950921125368370023759676882484954247807669269188900509431354003341680406829781037062048584642370111547296141074242730304212420979379150717383488783918878589489546295063608048115380249358029272340091169068974832903629972736480581108661641909324291469188146382756146834991554640988914321069492692439958132691343906299368284880455828258094479280614479991247277025638362250581334913353530973082115474768295191167987831826234897587972921679051877349738458216833453001877399139718571334451533128862863550890905033073181524197598706780675863308833012585482473634897975360595860669555778867576577837176465330507125945956312092212808434769422812963559727337063374443036019263089607486211113980427138530044766962),
  (46, 930505116240370148764963242338674015681986190707025049413490454597932375965349306858673790440231674116121389857026986485113277495200880441888459804400760345336892977846975714804673119723937140623698302917352046727816461804588538065780405802028531381339805954574291362083346560150682973249090492183261001885879507450044010880839473652643327588627112636281927302578677200068461964558139261216226640145754205833961577108659449484018585123634101391018116113005972473976306250488366671688474784861356209432640051207714814354015984313071220158700474102244138914558558147551134300400399033045101570668649996701341121547787738217513436170299665395183962119426617029635676490687630339696651048064448862961267833159266990793867479547729384918467054798490431767659132609129625190577673987838),
  (47, 3305818254661013173620756483965529126869804310853684545937946575825820531112772850898813425289658859597783865982830016907859080870938159229014487310396789415765159169236311650788478571723851160016748297704818014200517994341484470090456524960576448966755109312259658673593088859845906087649300014322869100990857547490805476561737801375977515328584558562902291672576604430297435339157191357176254700952745657648377963843196409840599910960765224380526876178661412069048970298343743542735212550781457219345685694256950206100301698512225684759743155867249040407500095261224899564505082083850330117224995788427198897205661010783378960249190446246176856449000256195456780819598099066705039176332192931040164703443865748743510758283902515744148617755007389263176335715391253),
  (48, 11744625732962579340397569481401977238270022179924312929479223213838496530715264224294050966398326563925223332712839468100650751377636137920797265047656272741126178720107104418238807900047437897652822395723535948454687733044205402943719577752108632024153540920960167559187472208991198747937161768182791719703073680992605140807762313741396440714739457444753315385006546271516237268391920931835611164263238593565685655562294527677172132417356451585600024381954602984615281286941766170629004565123751740084814372915292651369095832120396854200873935330607520258084789627134406943908772167573035722982540151892587049592385712847805814675798233926340266961618465448494212294623441397545320652371074872506492208900127220486071047859270452188605800755688600113),
  (49, 41725292493888514898961153254937447479271462853220643756483892210832552403286627737678497021528040150163090987379772898082744175161579881890351604489959938710639044519576033538010073455890962533716290745333988091080724362449235183505445768970392636310641073270846558942886425454896620922528917349447075403485389451857580348298379501052958324303564354327600891131557199175723247696308292585663391893243256926688776150436182218432485768682731003761890150871286789282116643717040241419481057907513843223240199472107350254730574572070997609305434961644741189549790819236543157956076485851215653059624465584447204993331310889520845695865446546137598246657066022766384639036402111737892154921522034260357451340137640285400269863950953179419792),
  (50, 148238017394989593707638964499073521634185591911221435724442202580180181039246125694334440027847662962894828342946260955196051990581164755057838780179830263209988098812928403739510649023203582763916122954059877873975502086601141416660249727276865608495831815467734821528897556289660055926268645995868662382181807686294652151993767274912595600156771532514656726271184177231929677987372821183969431568053126162660469683344236924421135632087040483538267638726584313353675204733079800443337741184494175246901331973956366148444809711367878383705908298284832544687932254289351896028538545333438533284640868402882974020549785557484919840842638341841245202661531666146150064899117985385607691987913007211134370041016884413832481362),
  (51, 526647232117446128923315614042172404773316401045311734650206157156234286530060148098951860480119896143755588145984806744825949717078232398281382838111761207912064846880973396295180600138306563459091308846651640720542237348054397515139761633965115867403891626290253183316071968727857808217415673821372167699761444970703927436209441120147119591564084642294774746821698192976311269280161824571202867899138703631493122680151176878496759414698155781838035740138353145201297294469756876006071621189058359496629140731415391006301346488664218392658783023876546281961915162940716573774490685077295487356072951846458081957766674358036674627024032337160500388070353149771948066377488622108241119027940150559956083015039),
  (52, 1871026825446073363406596051711163414571062450325597604639704333195859527912077695429189320748690392348680689779985111206209999247813878896032571765905099715774397182895586564412143020581795725145392011910981816935756599739885713663613163460602715254871170776313440461809420690260935377430105544518392195720174026498071105172145705339452905430852577410863908966905301388192192004283365891042379157009258940535006827925705714268576790238114547586032227654772744729309970711089630367780636052926801033795074196624824094595346402676858693685821874840062846442629575815543026958177680073294315454327643512013346030940306523044540094737844625406494916388173595988679238892675036027125673190876355062),
  (53, 6647222596164894770827671244271039092914039671182856937267868138784723980674882533733539880678004918716715690578417151781870452078493489637830198341382795379477189986610659020357142625274972927903543976325090527185139432504992777932822101131657969401033413392673935964495375977999347193018973603967026591971815927885597117324322461618088948808299299561729670706898610871252506876560017528115334397905699269210313398567307095277764539591896742410280619848961641499832849154770831017595184335664031637257661368471179732080040733173593837015950932353632904805527728105405488618992496026944240139326420835148370877995638741176258309993702536882561246097000445404124333043794303633477),
  (54, 23615678643426967661102928623643612872022736138118185321135458237096909880026739119200846338434126833955057198708470852348576263864741179769027173976901991616297524816447148990657753739212766661953700154119432451041307957606526415004300015764674824328930811422156697373033684588452304264609110497670592039116055677299744377054592170393299159744189440006143327423001482716305229104454239457229210111316172168903090118511760189296406881575527411287896785290828124756755673598851293356159329571654943730679237477902695593429440971227262735251587802050742953661987271155425344312477259722504715653337316131883897914780125472785117737878245513509062545907899340667517888),
  (55, 83899744550659249361550803685889641166502097709210799680348203271059155261901265339507444084844429890845061234451233301536948164726886934710051554173150969473790510486346570438105682729262437415919261665355497487518768005645144099311406072927951126567417279529517499992664481781688772683088443600478172527580142916917255021310081897927229189627026606468934453788921087698290281228665560094117410437341661820847999558676757232329086457984118073871396995740185157654267226385185642621567251322032105809387417491931790023487262444960387919300562789533835113334261936913213735607795194829132859172358498467534466555237430214542634351531743345620300308345),
  (56, 298071770112997020536806153067078595131955762270555572564984901592523708193377791392381164915343285942265228613485517846686450774163163541278194315602388279447614903249740448494110538109677377284193725931528598396975280625237576017578674742094686966663339638318407659100573334847914425141012914023332740666692677471829969795951702489136651813766378900092852453814302683255009997792174983878161997037643442595175538865668927131726620198536196431727172824006480111249186698178020316103959727015472097481127306954447053200033720269182028397956001207403602636401313443586399908248361119665900133339768135877786576175832059541904341496454093),
  (57, 1058963654944722849424487354024933380090307124260382784320260427027871782446765794031716699183805866500868214515365331856564187289087417400678396695215562429777177090637668729513694791776344339856211185845610597800269826700493345929899256114376385050661652473478845541361893980326442922308598194107179736145548063518289183192361290045508104705512155193047850291300265467274976393939274422014429398462907694825299855188124346706935145615985072219203358819768589029173643761338945417299638733620215163347599157096611883161032790840925092156044028783031086170621728131020166446191392894353837781942199552960162160656245877203),
  (58, 3762194662274690596452453983182706587687350861688338724549726623691169171564212544802928059863412188464379996393656678498163803229081736104299883747261463315898625864957789782512303287665274103827871685123413758536352525372048591493481669628558559730123100150176743825269199979117146067733875779525881591068515241435232177337662764995448848275368177269112859792135582748606591603463498033985801867146106581676109510259726722494078809102714474409049970725316999856006588774566081400483790610421984498325398530786065231895170934760086139551531253637518391396240192924809139717892433161656271817515098875176778),
  (59, 13371563291518064151599053954769303035918666421089378976579433871061554440736713419117576243484158231490279382808623610421703587085783954042825764037674707854149340826966257076180464773276048108152810484756261033495642850659426542151972509781749525952596044503301726369193249382394543242490428091881617139851973840643215463106276997895497776446699324584701428256393393700932278568166144023006564564956695463724566899709953979878015210115023730454730278957595560918175276042818675071456866060457082302693305090325647962236910743661665359493736657877592667382237650991533386480849313929925501880),
  (60, 47485572668471672340010781952494954122993150339574913553907362927183485599829939137797327696169511149080336597717832572844974707358474196497639186254513441251499549701703928770345844713716405088988565904303634541211867608076977865646709093153548766953517420219281112550373208297077825680810201304168818038851986010755953299641716249736999798286663897854254996574663115489098351342574110959226858138781329955362645723880596485628328841990860492463032340789804555811732946417859231667987885659175481965601825637028999088622615896825077638393855646419093956110444335419987319734225),
  (61, 168702643167135698345662753707546363471840218707277955565768219626700962762340773163177291510893884987501290124337575779345453467899201886003671671328072177744814264325198073970036006023522560929085305922478886101242387076400080714051408381292671554306103684234796046640526900450189992496907682744166867316447943092557925607852368068901176426771445644921086139730212691483294621234515014311460098460111538069704784116395862683586664853425454117601953366265181904805213091105277975547637647007781046517900895061415359115391234751528921431931222357323527502554456403),
  (62, 599352187476781882547460441907849515712619488461194433695797474378045520307986289126956128659762666643890226063141793411516929757910616511172571748485281206097096875744187041111573022211497902690962584072697858531047407429102543251815531410874786547668738112939479658004133736643272278091506531850944773875481807071124093644638128630757831008776393847125554461879969761836145335614864798041555162785130226823726459495551723487271500235781383401518268746605789200549092755959145673144746876438859835169324751289803266445602093220867002901919645338899),
  (63, 2129326718352152770636228624591234664403995292975026812669733095579960713041687093820926458202058749916782434499473485091623429858464107917750317370976949558288961207981180190294046994710890063639184318743774409874498744233249249925862336727948254927174279368692230679063104943767058135060335045059328831510170307356189042026181149265742201335081178486988782549662875709016729787267214418386978856734535246621615784597931105168055674920398300060746029052110589466698728100858231758984483165338722918596388291256685119061040991077773208),
  (64, 7564888155673576873259547450813782268073277737048161716452512764985076582962398447452858446261730279358101456898641995793406860737287200781588443010329727904956197953519441111485904761375811866818111616811598382322720746479681511889044771816064790505918390129015819108949153486325693658932504239062519314984557198729059773437715925725072975116824470669835436078018242859478191401433589020060538306558271338326592340955945398377531803283026505462778333946873654340581827113423249656778880958436268767999213496900695326718),
  (65, 26875881640809050970825486558043917727590714374990409730621752670726917314263449788748030961347707005275297023516527518489632757177364824225600294063512668369262970121149225509410186734680407927819187018235030939538354811765655692830298459334643246177528137118112121873820310812470658514667247483607314553366463240780408341683321854129260767612289264746923629528336662569376767916264504058566397956559732196014603048899935587848537918064758488817458721951407187097720665969029657002754905577815317081015352),
  (66, 95482309124401227634375652333282388301057785793660622363199143798456835507748718032181065242485395255032355567669805718813641739291058067682958925066064402010030898173456506637871728538040246454843743416682305447731215986958258791207848104455165646583619386986738350552842322471343364294169921325379846638871360076003365280734527683191943890662754492327623851979176429220212024790572458761368346676302234664952032660639395827022684246260271286886601026702047838435286428757901671277256610105),
  (67, 339221317116502400073793362412105518138561430318384022115033478596161282449670293837727114844189401493614534993487266100783089237633213886981155761289265948916633197616380631123950456217445965639410388188813792144815031436845677809217990326915293810102358547933167013812652165282928938042857791205088390346350594190040180441333594763652433019524684580840000842334853990264722377718968515330246229017185272071905619034749784042618624670363908360291988639728183547266248596582742),
  (68, 1205157756289914032575176587518210671726997088799969650262844371791277890689483776769174810234015628202202916242756857687451816884853297337108940154812936605649973866567423699808841388171596477508411589470537394031481041944911384346545969036885196701192794931474545996027014837953455928914727830095028303191183284868364501359528791287201786747824210404838597891250428423973538432148627832549935938002826291983755685581460561376598888247342199043478031874272233447),
  (69, 4281574964652607831766551651021648886114565985714331454459371530384895570501256843453168640361420178717233186018033976369536042861110496316132383631502857750628229783766707461442116045776314570760922754484710654572725264246091551178021326141261196788402357374949259608198019284682786801161453211867219723433903595709956122251240161887990837014078696004185582821753834752012955376361504673347986783235105574786044460513539560739943763213196403497130),
  (70, 15211225123025527239895616386788541590820047605222724615190274007382638034854961826066558529434161286377412276265203760291067081545562318232891409744480682362098651450533757112829718260099969592902452253960811109543566007303432942690159322702873276902057693348450834112383289001259884170806498809242581470195169309084253407682924049470885851694170920653974676916046330722488064668348284104476897797310022811555557305687730425291046168),
  (71, 54041081529805562245563040046057674614483327988909786093817452424842967996196232047102082922265500972198109862081969569428495471696553848174829428878125927812449956298459913839071075650938545624521093356447506823674708760296121333496523554057728332739536796717287460216931206979103330974179406793869295530603547415558018433861749187482882979784862570843017665205443817341599192833453984809922276326543876178531852638317),
  (72, 191992461531497033194567044332319836517834337286776965708226791423123746154541219874619015353370952439429765972305267355878171763233906137204985259613904133561231316690158446695189672659737914881928175170044040934325695622542092586062466946665480184375617524094109857675456388137032413249844212075678067916197608859484779272577775792074195511876801211677537068741172546609126795267476277955676235759050233),
  (73, 682099692816335387659445389649639715907298326168671712038431567473795190163321147236902593305943027119986284993648833603447147993777166187671708750518249250867400516141415955661494378117289335962760982887943774482246893757770257366638299983423300442706566715045284296361357828189245333677538391126585862528497531527323611056914827974617728614427283721064465237003217920968611090570485427333),
  (74, 2423285551989552579092512903766836099349247269097603437114888343922673639161230367764545780232007920886270619012490968277124601632772989419296030434751464788636457643842176356352068886459647063912851031401695069106184761663953484284432353880995510707949453183939565837033432466925586488395396302031547213049862595871798032791338763082293609208318394733186087157968476688817035),
  (75, 8609701959032706504600454847318215144992720054716257056489261537215811491523513790798650197562132043689236765820834443531425943216480490261011062859739517010715849494247573812377442216840207094770555128336919109101157336893238778081132229774008636278731739090521892003701434026044612612508307964707640392131221998671254340800675631027108070018180466857715788501),
  (76, 30586163746423643504040677061895630396173353225080981884645019505909915837632633370448460237667844659120594975591869027114060441596619622639797629944583235746549841507618979444654665687200823182725283360546696478721969465294186089210405081423531773052178507760211678026845447345368604875311051234913577027973929109767832314025272891442658031339869),
  (77, 108752275028076376584149093300826983314364681009027931431125968659967694101177574528912737684440777518160889445855328203426408019061262616732847890319751243062430776629250233145040675908203034653194985437926174069994908408168876106965038896921517206184665281245744623853425488285401710395141838870382618179161720783990524424856943237),
  (78, 386051661123869583553101340851094310413488602313177800137829260660405276930373343142078782145406854385012596968833293077630608894022751980603379516607683241279493842941475236070620681150043799995032242165776659781738307527706640535347904792397050173471753527191971042016137597369225794004545222499066586894563411636701),
  (79, 1369294134269601631470135520403164738537066570243654371346794549987826901330258506080323803795900540066449717068586102936129438557049480786584030941350557134565659763057727521001516917679849753630362188592250103205370704319192207292572814021965514161985956947971484891858411874008726349330589830807858122),
  (80, 4872657045077182241593555323494711482912065006378339568482111637648877640178501827182796731767664694690234033027552159729695746746334804772173438878358934921608791685823030648619395236315679786420618370517462031583054357241383473294512938479775263370660328273110561901698916077432370426296),
  (81, 17311155139145389148600181026509740909567920253625886154388306391011083018841297673161676562879257661482494102394868890015727016968312024705228443069428762927981972430174577518009480742785491114645693343392016028959977472968471541323862775999754694535446048765621154374667984),
  (82, 61501575699807401479882892917214403150537113181842415532093769954601511983845089468827625265924386999793690819790804078874361931171476979664169213555084785143171354052623259813599881371815136829797259171132334709652579784217728145282293034406953725110800470097),
  (83, 218497496936607841112013635258845590986981937760789779532476632147484664237655645142138121062100832722690607676903210117733039916240077542735468417684667060574643272965488619286845458192542794579666715609312781055107721621010916374855536338412167),
  (84, 776258996880778505225708983677367638114661601179432849891081534620153783208024186014005243907704302341435113848781886735651234540553044554629331481155139952598840984118331086944253482205960782725961810362435407251633934763393340894),
  (85, 2757826131551003447151401898477109756634377896344711718318901317178837128602665757280847144647339809648127924626533499966795502287560214030088471071929866953525193795398409762577463713971657477681450159103362361288346),
  (86, 9797781648193114087679068829080035688221273778409589554147393627717743788051472551005769866267170880031574701270256840863861480213180715378308651695611110541994304871737300703671252089636816766227561283),
  (87, 34808659497239772244351643098826445813647467276809442898907940863261903719735967081782696404982454237738080074162509508467742300566592133728805830044588477149726299662168939155419852729916),
  (88, 123664731906750478274039470041452180449535199853878814012390130422550632292363325862402507882880707690177233915195719773079493316857350345244297064006389748172987427007385983),
  (89, 439347050248360582635012315422229169819663454853302870673137675332057090471191929970972356606508786428569745336650662990294036414419636484603558733793542742114),
  (90, 1560876886204476128180005578362507456661065157094657944269571608022828039443995055865713356714974776646021937175512254312472080840299743021416029),
  (91, 5545340425489415028584037225693906425488235659101398791029226933844727490965938182894036120682045567202045776414245452627048536538),
  (92, 19701003098195909764088805348633289725279015678205722831222591066468913828134399213264850331785968762148568192718441),
  (93, 69993026688405276516811179305443803574038306930565016894895047094675904107514946104343611340487852694),
  (94, 248661618204897738775057410764024726257659614862093087849360015003783865137970618734574),
  (95, 883827631515266677984381953653760826315018821902781674388731201665264193),
  (96, 3138550867693351501506721766889134609096281278491138136304),
  (97, 11126622876311656286187639923399771186160279),
  (98, 39614081257133717287808028840),
  (99, 141062564043038)], [
  (0, 43949019602496745314895769266931446369949160171920397072398130069242107061903053378961487601609888984074141769672284706733961195101560364672479470407594852384047448503837220671044876461616724859228084440529145454494257391991077398811126281801239412935177681084963080557879721976428214117697045910925523962371066643909229068128922952657262217373797258922138866141910899475705013182570958861578156502087064671704062301583472205960730532096586636659420979959105447773711978553130322564386955064599322342195310342221776953388561365158059144762688593791523938986640478763129545506418145551404203209821488805948384901882849914572026887519617990746470490845342344595097769589152975879614787101840313106872824999318359786328991209940608173686901153804785269832614162516229468077330729500893097211245329001302405830343979019524124902794391074216408804527461278062545927245787282833681618093821957217662284980716952953389340241785155595344181247912364123064830790982449976664512921486494138516043529015318993340368465451092703942441792685220741925432930956237028688191045917610654225492289369842218556843079757990377018422450149545710959698609324404108254435155054957540172514168521141126095833924276409406089620301751337606643362584848778165443087532540663736681373219867574756944080292898997910503304993077026017976703111949583046411131373294033158292485533693990740837442647573090875818073873207801340324236455536216696144682139800961157151566793277440)]⟩

theorem ssssLow2_ok : ssssPlate.lowOk (28895461571 / 200000000) 4357049400000000 ⟨37180115858359600, 15939377645640400, 37052486930359600, 95721696000000, 95721696000000, 65262831458361600, -629494767503243037, 0, 0⟩ ssssLow2 1 = true := by decide +kernel

def ssssVec2 : List ℕ := [
  10569477067416910502629734636096010578695384869300596108022964341485241848507583114108161904572296632097371420531022649454748537245461729429753362210966091216094506469082557468280225880499917054900275331525197510217410994806921193883176752912285775099451471175306256717952778047216525387887418342515037828268914409676705083010300244592213015124041994779043119139516922310062818035092439731132989750468303906475165953539219227984201246988895099090018706075488614238207254192596249557905244107843764641343505587983327722406968673189148398086782674875593960288247701871327728993905940195676066693590644556190889145837866330533465525135506771475857562570950165687354702023821219234445074030573514048859677036777872467525298556934604459987713434342180709528976749264829004428117547221191749332410648077555098819945469926568411377245016576836720842303712829748194884320234024822007721007213820646520207009278990087056656777021923934483483979390476374891879033270946288721108544663139572915515114632190760826447680199509802596506721938359439862860285284241946505296728451582578680205838914517901674500476929568231218655261264816792297378649156412233128406781573027357426097339865317010801484366488452102030943146922538586289287441580020301206023967899310218497511146058936,
  10591361539162983152780349889701481987525926320713092296019235651444313000093288637555244194844394860546089119510917510783186046840426499760925729235520532672556910584892174085754806066221993860929727903090667329664939623591316529216853116457663493646229672191220260014379714560826029841787281758676670380484542412792853285905723641360355161346795303890342023129603032446371921796415767651857244733485232407538383629329736021727426821432796346135556895699325843440445331636489121409583801830672841628475047646938134258229547443439549436145294541803920430436305459984511509115067734436673007790666902660194657180216637010236250260995226367510911051114385364000234014909257037266281879856820393234197312009718903941020867079344085653745867155176752772953791313505632618140856427616516723660986619423476917589800018638826870803989503020872075173499913288035937062977721334114442211903401495773688716692676069445488381987203499812688443400615874120406977841337005484363354925278829194885430560720230256225839278146880788316152004213640917797850686279291704006079523300903433010011465463656570298092472419867086888092822685719826750761003994459555702777406531813558438839446884492075553454270801037866880794575099915484051630533146567484906416515451127364944899536454158]

theorem ssssHigh2_ok : ssssPlate.highOk (28895461573 / 200000000) 4357049400000000 ⟨37180115858359600, 15939377645640400, 37052486930359600, 95721696000000, 95721696000000, 65262831458361600, -629494767546813531, 0, 0⟩ 382 42 369934195239186212827393753478023833390256938244779548682117176901223072201232710944082784185651798019340 ssssVec2 = true := by
  decide +kernel

def ssssLow3 : Cert := ⟨342, 273, 50, 2 ^ 224, 1126545516804084285548409637403056465329559781352695105261998961842286000000000000000, 1156869860167412860953369952260532685475727845472310350378390156520828000, [
  (0, 70623351600566775093598555700735262289723815041267919768603042210291618580499571933467092106995142452971365948503054630941818217221664080781983499206677823143771140835759100842006846848142351029324085382027506853826505661751653104403823134758401308242295300201734498931423962461770234118971398327665155391500026852784813279775587481377924226615716518370644429619878780084143535557274400158943610798655173803942899051745200615557171226163041090918055493948032425346948857107434989761513757559072642165924004515303277944690362045776316708030671402434152492085116271778804202858117038746869260472609523081308018282493076233216125025881930816817410776662324740959522742548347737055429168258546295995077768847343996662828597293007471685373817694616370729877929889625635715334108731661724037962472661211462601179034503354326481481702083377176383783547727735940848294352828687597643220071027712075222077418311177777032955585858434976757147783298943792775970933293794574727352925816804621821638763405749246904560706365592140006622231563926169325997778790781282611439691779507233418691834006821619924765519743160044961322225939185296253496338398000466096543427405817250912859299211039293266023193998573620231806586810304734496876998736508349671718673601451324143465033454199771970415230951356042287603675531590767519621540090347107461754044239756842121678690143466180955251922204594762888393863444448447098001480806229562942923608973701091710700826549288996188727379350124341098668341504411241492195376603406733328),
  (1, 62726136825490399461430354720668490305474004983533689401855248179414482931428636324985067042806804038099022339294752444261028673697011680596678821411568064447930683322754192248283100364162069950770150157372138589683539563289106241484161080524930087554713934921964093513183672640650512512457514372178105763407728310885986556265871917142868824201942789854834681355057532717302370880885875776079310155112274521813702158469039606489331002565332514568854673639556196184376768886766594162119547612723909295191912045129724288787935330627106536603458173183023914738483861562706105924515372044910451676442383586635211581559633466648904681042995991816481789555839900485841327044670038358963250876519174627456543156955739913607400980221867943963890152028703733180155798138998242380103173718859622572704138183184650984352693568103401916644882966647409549055339157792833992253427855470371484437674908149424331609412970970308968897438733141733456799616969137866376033723719195550359821168337989572842111992294055389057949051061167176889509752424202073253269804388668892066058060386199036796045166297742055396509088978353800027961829447048441707218011834663022610553700737827134909966228395979880046664917118400569967364408248005401428019502685712406281046132247105207160440468747644531477414952611058360027311609827519767098390256920955393279219738685264870712183769628558722316624650685668189734040289509098281099104838147545217033716115494811764122969294609791998455362431058772259710162011973824294422),
  (2, 55712001078119247614207809390424647176978754614285153696735894456886577699593552905948356514628212797674802968869681638437544110057213791484572528759183517674898244544215506409136941627597395805746793265266883771134687050212887915235133785932513379951965159925532429222783723941880471919452090289443504707805911506649248635744696128183341749732364759597054314859451287124800876259242958906760409970474743184247673992451773825128153177556833201094262896295882033025049479096624286394129880715588050361599481832180961897503007301413929488488002824063824375033593138506139318737564356180020703496628866052919046158148528150415178142931944673665418388391009701848214774952603819889449866089278418826717861752394489301981233470799666860625127269826595582527263376134488183281207403813264095976483954067292474124245472514995816814840479261838401188305616290611312366915797328101277179880293269623836441085600097033328478453463391176461571468430346464799081874869792806187432665425975475627168103065097105778329686086837853662395321059652492001062303949818239939251765242900972855927833362265146893558945629525744226925740450575721420645002939789687915427386471969088896111622128289638506549113451347292542902633861567302557481277548126492661974076449884256034836390789875221511420867036410061424936473049292391482817420812005711955675751215217588589087031236867189171107243603478455683383106302531687776169831411979646420380124991976706325762812985249896651579874671074540097161513),
  (3, 49482197076163012373601163506466718125615271513978358301830244791214954195605626200953327239789675139005244837777564231550415054672589963293210420678399428940191227117116009087368876867404326246875427642340268270696458080737771298008163013943817691353412742220933272709214900004354625894313731117512036176890892880898954616127056217693308978228499617476165032291945642183085834671279585370083061790056097205954156540983052428072679310544839267097547734280514925199978218751717554239155925187746786799947942330976090979548699570660359701322396297765212781770376014338155111375259526904114273843165973719124553041680570155530270708824177061888694589022074961925536026702289298900599406289743796609909484669989334387922237854705269727866839458676200514702202716859587751795821571779315925511636836734241396685093839867841460651327788063687837106230447023568777456229913518336761245560611102215650016239319787181723868879892111278296277724357284957058692215786178000808583569247038313402881008070746331950020654904985514792616128859608397248282981436748068985862245639456864302243851713649472833029617011153765293573939892767323300439810789561263894623232336421526259109517244013586385430446952976025904245753790424942060899277454511603509050093037745658863567041073518013019272914851977639623714575527752628767587702499470541884839881169409378581469091962577927120171845584894125214127084819614799131490597952990039070470048101405431186275056288758981899057020888),
  (4, 43949019602406068006978883507475146672868352943067567553546782273504953949521691502569091018201254766386199856975746893660093265076821630417375466052463739477787684100722499064013710157849193537917364332527149844462269323978245879271746109876284181020893295825116111383726277142207827170094974186931919532040026058664844702197228713429041366644874162421614392438088921289448457373976735790525945324143783664957185405969170229125639544523823174814557234327439923320096955252533841809477791901226077085469890185383657532657805526104621418267652085018810925700764705061897898433054456952091340771179338817067907322001293481624162196681963467487729405955328294776687055099999153370192150278292643248727478904671578567788826720170695562571678191406240380554292033658334588214253460567963898811516678113691123800831981240629601199433899785253804775757857847479079000927209412551264375813753628320208969095064535692858966107252138441091415174658503475504193487004732536885364073969034450804298525140704294668932993581832528834849043126270440461517887024593611421589322329881957384545625344555488714800931151705969254477273920916222299893615364341040067034162098064596963825073020016425263522423543757766567733148371952022597869510234687312836702670485979345255918151942484986931458142469309806993153776637708849091413561296762491570445501534530927578258714086850797049862786245130915619885116003625526881843806493398740280433073113876589967981491899458),
  (5, 39034570777824030703669857362327190324456491271733546813608722095182867898780420658908057821250342629793577320418024314812166189562661654039892635632549858674325241082710287307553560755318972699431270179617017955114418512370081687106559430728720179282669560587661765384914091609009618967508203701272651555710705259329841084345298922431293750452128131945122980631114186318079381979136222719130169709449892799442286292445721646987349607952763560367012363099744940481705615646659338402799208895683753143624932992136366340490968451898397233078730709546117817495734316433803939350296240573373204803806556305904014280515990381635530280412317278194495653478403214798767656701127443804149477662337450353874607985155199903584082466987770366888974959422255338833223620210822320534449330612572607656211229525374697112830747943901837924694017543809122895017644064972659075513062883127400202667451368942223092924625937603394279460974000478440108797562550146146111469529311486036359060912729119763776401237076058309868194569342480901963408773885116928714015065250751174414178335765714857857310509768373092497203264915315216000267728964893319205896736541075187515842241256749766794632569484388149002344618614140639358206944666252488627499338299330666029142932867388586030419828647423549360537267122517012520270956067828901876351842895253502126261696791651437910390230698980120715884719474355658402021023503263625769839597500342624477327369224539),
  (6, 34669663387120497371360123042138001233304504378586882620412653286825443454782781214288353426651410419526024759174648088251966878174543172645568934997618597836352435137787464392211314547880813903418171141381714442168580410606838676271237550520212514862023904602946079327630598420209862042065070920522725024918121347519318942013031552502008398242440453871635255774075386547241138562916446988857765034242081965603842241810897533675885923962657640422944207940241842884574661667463768305719830744546990535112665300898096948880036975011131317430508227159080414267431766623137382428368365845486173193534535192103163847703973186632785733709846851293719865448549611911240528066767656991766894332194882286099288729699936337325150981178503171943374791960530161414515886201815704224513400692570024504061029449364296613496650665256470709708837361034545967043414852994853151382033952261185852719326337563878716314670321190140455349269245835475291373977481171993529713424756073400014546516750199506169186978063072144632463298986858918432339075168544622278263114712983372927515772205944905776586096786339364089543007197152937356892591217030652278303969157105388915164950911264896056641785042574439345587064900696426802256896612214989034994831151891213566671458464239777957700537353120326792793134802065756101568740084327404109825237218730306876960645753032805438901558693247713041444446946264868442707751803929478332241931920148355),
  (7, 30792846838708138549059927494549163474337473156985009302453205960718639341817087836657029646071750259853489299245906143802079179291517215968039734662547248484059493997535907014868575950643956698912235891457317351297479143136917243113649868067015124288187018622940497531191089642788110815394905978580436149608657114751539548222491642657454773556275951621469116539810938724622678978510539165965520042340507759151117736251944218003096925710662042080025951844882398306406204349348377492082217473340273837876855630053006171062631019533903999271023455651047853620810646653589484647133781709736288923617607663853961432614661578841692320961794941942952657290317416737835161896541290750273120128287010085547649284251017542189240323438745166420646871640107309006213404539449728485914983108120348123975954499095922072911779030162660762186694871416291305369491406755473489368673715649838965800878820025198737240649016388194153072408197791866121374785375735746482880261875587215503102712449216993507805467307392790317801048662087617052058317312849823655170996293585487697621617274989009621454181893924599176105488547806454513449687353129351706891039112392785917363334481104284272466096044848921426254530090325108590161673141111135495453954381261736148875848197813011849382142352294772173560700630408373941311577014644094541548456822206634874641921864023217228185513550778169906014272997809342724086637319109480311),
  (8, 27349542043271791546263862477549689588529589518537407590816064476561417536193129508888508791697993038818703518316648579810200964056877311913643037599689996827617649115744846668061096790002318751944945544067264539549417292010745357947199237118621482402501900268467821355739509179625609912200497839938043050536029044215325056559901770665305490728242526843050616646881649402216691611110342295335178495774608516325672027598303995030802167846974058044705472264790245709069699714652847272819120118614752634514094097917722322498260783139015605991235557183097080397564928781702610843514045803819059761814258795951742405198985424015295951092710380559721603690844985836877907222790811680516072220670188193298003575490988031906352627938929617940464995443130734589212112956918815160239273033093432973528321390383833175748092149395711444645478753676337213830355032746975743356708115074238990747399211361433380591712691600362759544892574965808339456801245207120784023475016989491835402527380454335441781944319839115206541335496052213422560911008900449887334290903186809992747931216589289900486593610050774423906338195479675326865971594104690700701885286033985375923021926203792650702342640216921783811602034783859236905439413687713953831711910374562995853682583080508206549725461363261219126147376268587953286526134736905914712846186538867350809805257148420905608620581961470428779259365112991792541),
  (9, 24291273031515273880266525521376132691146656056113613067651912294975408806825522718715896034154697646591046267444698901566941605465428398721017009154975295770343383872365796010656739068626701725946297616317585739096702675393682559355876303941156926004537906339328391945872434119594519382860264015168485213260470000974973164436015907088477137922360843586080349300408863851194856384648234600557115623034798017274649636784366706567551450940875865614539931714972337771329363003477017852176537588091195940268709670433369560243618641869832307331636769934426497089831191860225092982335271923995342742211945774911249996826037713655658177895794904241532015649745577743520316729762662721333887751066700452582105248273716863407452842769324085010892289674562532680636643332631579309297127839873341742819448267369569172734938117867462666838075245817527568643292970478838127002529026893936477824726121676925990995158663008314637645113354661737945443985220266748539789710886444584077273968295773460516417276469164331852570531084896653235587584714193479993321883571865179158045844526316033180251578332341343104123750373650084833670001658647683114725203784743892183550725275178425405321413769104569610916737521690699321339200414718768973490954837347710691245132877903033644477168683720979647191423201987114576111095258841397978930799294755695241417584772853398344780544740452560337654717),
  (10, 21574984495532855706051961552058855348574453891814791751482080843757008254447456438366360509848597935572750398402554550423808275369045829718888409243356469092681650998791202643064459693201050226337413804923873116604546139410146233488035272458235467982750629806354243421172673886193810218277410592633095881502719238181243360776735648966141211628515519465249506158992920451454007156259485108678638516365286344045750412389378178938721745903198563731531503152832053805799527959213147190887386139494268892065633734868401811889050687907819178348486446764704836575854678132394591344028943365728782282898045061265444569566821001470166863234073396973212550562826318288591881410010422991428558582761356028483698999677512777310995278268006302902810675601820230628618107656197725630049631935010799119855906532870794897162714755937188835125721611007779218424409147768301086921501257827791741637591781344035953487901047950932136045184256725954257371840323143405202350725038448744745496237386526064842317205233659930117075486171160558024891854599157572504577490708088031778223793316228280619711038294759953328330050938710925394144915536528755401608610653466402996229865391938248145727434746185667268893570126408674820452659053209178996326475669902917169498704929852763742404286065877887376821930347863793960425654881034739565021723820211832855360364359299888223348804125),
  (11, 19162435632301894462969598200495338686802290588383168981981475601824900483402633579367842619174246963888239321591087199612125670368445970488742318200346480665410309082462813716116032470972616789090167156238777785202209171132586163230236989079086239553297983884767007392685581207326540401217690815812047452664520624358951093991501084814980707647780867544000767426893165298429294044705890338754758393179430215998099432773423206371189797395850490708000150673093694557217958207666821089947854235753316849148128297647756922375916797690505971685076369364622687619658106716494010670458770780797754713992688780337353985063948668646894907648276079021232934784350754455648547950176240244949228050891865355728029676126854719443817570535556289636528290069383902341097684378362782391254728633953836990531295562062732594326163312753418418303934304968763029605039742920879557173287563094151081539251661479663201319178291990169733877151749362453459723140628068831891746147479447832729860803122781783440513039199311810634178165583436011159621354661692615025780047572423793538311015404886953512987201637674316070842154253346966289090987008323671841790827474317804177999317189762947102662862154020488223261675091307914241446656738072705298125316360294574666251194961585931345620106104731224945895379112361788501866950304397932921951796331716970528484888233266),
  (12, 17019661797843901782130817514602832600272298523979273348057490177069900786656368333160251919481620340701027192254085262321409107453111854759549132426014497976217374494807571299292123806333294258072194341504127896782994675222474528109168853167958114236363687347929609725839796889488113813350406702079222984121468042085598472629423484112182020845489126334893452755859017344746313220572707339446975904217125199134038475060364455921157081798038606020247537840766952697625646838329661515795114609091428565950395510278727213575671856305146988448223933842461888640258561272661986975080059453336885195702255739167272189047387231303482288842883153470602682173626624338042511771630248394437725592249385917438172012732124668456594721036848656854498337287121568817343190302827315861907485495226688099068434574121086314436771535358420698394545514710377134164774432274214812486696674628236705147504704351623684198657207256269518878947585773753029719719604268118993864627045590926270568779030816998852052413110015085254058488253835566478622245480680606135589958172510203325154271143769375863874122337449942076797165341379526869985413043578189251008998452844025692177157757530878094549712168597154718345249312429811819782692074734782034790413725042262194889573266422706702955588569251131745251156418506721873982405218034969737847295768959540),
  (13, 15116496319381561161988303714187619401519691298992493348538002483231479394382241928960276326183367400491233107145063117952088441962596832372143554924287481266125740996652453621205100931802672911782512295651362459910433742290412875150585299414274619377610230999486412626664898643832661491983601602102596323523874112509328778981524216896648296666862637037712087208763046018073545902858725115754237990616122270200820163073314398754185552474738697330461249967337968911148208308619254434651109326313972845294271377848676087507118008658202753740120023799031429139871576413428226857348255797238751709731521944013791387570678514743284734995931273537443290191946559834851093043616169687146399738272090793095161950870533844869103176377318047945687320520076932444350116594857526569439795629170885086626167185212749743387644066678044940035634892838492067591975557544534428106043706995464607673045389163576628794753075878038233268638605973910361724592461083213158469719520594157841990976036416511055055894636640548770338861466187039679975399649222309429525889129224600755209602591618971400505733632043222485264063352471168571264532358830411863156902533952078298004100498804051442392214572960569259233470853565796788037722793386026546765366928285897709582803780186552349086697572493116762310359955380661475575272090752481884),
  (14, 13426145812348546488014098524219791483027323958950749542714630441935254602148477757052594340076942988515039461740728030958931594875331726755583006316314589166884802560435527164026434712451890268797124559295080309358926673405682612694097547479959970534599378287323526286262821559225852480714783107629553765712611936122084412308424016917326154047920823032043875117322628364302326204680370878803139991145284660270070400405739228304463341106200212414818257327476280593596642609936082791424435465129336429334040935681159709643085694215440527571220196276979345559851287943819447894029901580511109753427328025920323335105047346833432036829641202674173527262687903633170413339011209873011738166599398915270236177707652797483717885293047962526931206502994212600479209497408686520805600814874153478213282492268983768964038104838353634913539018108597030833456261507525629962610471694833401399180102368182484658455366152961801036119130445240130767397077099579672358546717771533518997561431084616204960648932663161301601942184400989940019391859627320649760967317492080856712176924747513948277533355415566088331814053884261066600403976642270812156853739042972512164135714818708844781622212865349504505434701819010723769973780221765437551427221568671201738283544603855889922120613588904331601360103234493410501),
  (15, 11924812970277452704328291846161145007896279650850835945566072087966478136562906772878777099072303106418373577242069326206874085926397923301316039360304761101607346653816778681501569981507379838436031640760370425902814837415161890718164230113897406094982624589755358289774686966289248920234163192091617523032301261237043956214606592247280649151190867194085118766114600619640424911473061467548705288415625812959842526742515113254928099596748890628600856133249036806232932511537877838238872282859944615124951526791575184199507931934710423268855330971063366322360052735920324176341231401664294987773431100398718932986960818555035716410270365556851155517559512832422127306852803542951376141550837900794680705339244012101143714218867541647142374756561950254361922985829896188798985189378929646492946405193423273892448266668585426588156470740261421209598413338903618900161269062879461680321723311653541327352338685446760342494087413906009469730975407035946198661785504587602985186336607366530772738108370717390962099233030995683271821026847204031165917227431720036194454752192235333745670381579704264945849274452936143320851330079488527778759417388725711006372225508935464335030804050615796151972314657554811765540371676317109707982469359873894509013306621083544637984622778824317816101),
  (16, 10591361539160622013766087413315188489818477709608205087883548358946412317224273467292026288956864490368393884384775312937436065060373552635744223593841669030784669203307556080005309771645082521242879503677724724686240724470855564375076168110243127517735254402374206733700399174610055618675059857409347990837178940759741155557957987505614221846944665372270052317119508318285004578828542514225099510023183627130869229790188617217557523359305305766923837940115487942193462586823293155920336029278263714558251827343220457982784443484055771823394715991964791035962648647462039278663630157347716852426024029522969719881862526804863643403565388303942479343544468961213043926265999674300850227358393753105557726311345381955284689492541870677866000440970223735397896620659844493582233603470412327496861659111153347279797677456567908187916848515980836353882152254255968299956896331005645296552896850045548776577242946083852208369478613826747783405782526137886243494665695074527727242805897851232771892753016223014503628985363153930170285829287161419005404983922347268498212670491019841394503727116789018659973066400494235248029657404377073496432061540918266650507015520830331235537619391235347385602513445602053889876881536397437332958770334947004121011031880969148588845822),
  (17, 9407018754324333885189331031385266532143450575748646738569113371732529469369572573537520880076320597145713442896442987750322055257244523452861456398409572424065560974642563128135708247020585950145847668533545767363015772233471208847341052211632154545328314531539463377944311018046647587400571022613588613954948121904815572495155206717878112173418223352063924884636762611800223745355521992921856395163376477726966261768431003409847820541682039056915001716275345592534012346048477587201062180132786449449382414748186726679679282926801588546890260714334800414590103747278208588992529259911103142805109371716268600348710353268927492701858098083984357263633900741042704491250398548603681687960373328872977862599634841400067599648997237076884401872188167213617601731171108787530941409399384007840345251764564599885355927109322335808288639696082765719155684466638072842846459034948153505802475171994211055355049605247775516019790576897763887827773076309381869878646407722124573473487359558385731891578090546089722111836625122706627622576480296035778121552233239624883417985025396864281387601053300068397413821139889235048502096921159573105602013760158617021698264256388600369658720094550670673136096311116051951289378465874275484646299297524895265020162715),
  (18, 8355111051305227474363351653061885688472410450121549575336614551900195897711574616070524513050083134670787029545247396472797765458982534573100097519631499094178715412896647035526198605665127495990210820786471548550289665427958444677540323727639418896877261501278285978433072253094416990831216224707443142666094770682429445904370670250128306075721653075124280033127640797491867239793667373708723453723449743988215269823528835808560085154153518823286804929487734704504837061036472378870722183438686189438524073574205800432763704839216679258905280776846072512996862164127570649094460130634215122113049093876494989448921592757479729021968888581941837502557082634866037956142699850459615455386618957275129653880129904806678509740784172061164594881944600241213918231742350640523047153651884346487992183731253191892614625492211431207531118189455566407395512447796898730108767526103442945371779115647400930432885002151683963966092176255226642274382382480425346797047450092154494470385776781578479765167899974012932270885655380329436852932979526154585394140857723725195654876900754720326338127743583449571725932441721251965956965062240275875974490185772271345063965896266333978977794821680748174625466156281521195303276599057731165507776488129),
  (19, 7420829329967328890627832696457742479332262819477205773332328802884742732094436358932429148994045663553384842913791257550587615759526563897561805310341508692233561727250603289150529631377968858679098079051690542897782847817070358820842603839921304892806409770284000098665371560954882311594875185294454337747641240941484875201704331155261951824025014130637081208526382119773525210101843432199279688512452185458846494755192396680743751329295516639508144310145409252723672737944335177443122744945389424994325454828925880702189030645869960531835937653247214287954227940621789272661072448127587965790967475833484584925276677611310901916776975833480834391312531294449181764715350327296819277288940700203988110324006482060500960306045857182604922050253497898229514245989612968895106168235301058314704557822323413010841830098522014024491787672511242427941877322243220887687023803264741381634894240447755194919735307243906683246135072552830568446380644280750459624603520795383677667326303874987959722176346902476538453080087415299244863894192654043168964781855305691018173275337051882889623066560329958240005330911180627002613078798735979911664536352038286776136385395724197799683789820301437698982776792694371845827987013035209),
  (20, 6591020467120955470162332810149914779226928000086831675791715254454467101335895525829321260783716894273614547773779218065047019198053286827908385705217518576043381822285895031595478266219084562821388189721146060456230747401205499907129953196885813868967459915169255129441449617229119454081101044419288369419397367266032099333623318614305899270470194439800205543278297512183987384082204252582188209690199111848786374320271912777830825622756131572461006340286148097834290478121140345675752931927170511712374609851567499423118343259555889369515738249167094346338884584429576318368897314320938367470571977575659502334611293085834902541521122337662296299638621281438366675285592653440905160231961461445105838678316701345953987993651348169119194359629787980599031458739753952292445017610563155464464763749922998698675083650941516351924469719810396039118970860306421021767074290972057384616908334408103989936140357212481393155864872743714922762579766919353729374255701620494627369451577315806902789743651115682688281039472919696794149965828624794191978258801457872909208469577003242138973009426089084505334460566750961366555413862170942467039855901109807495994635771526238144149974331222130047216868406526192006),
  (21, 5854002142745788395199237803067554287404076537699408715685864968037261928625376674744086367496308838059453852260404388751457922438563917523347821022263619848718470198392882074441648211046236719970352652198100068818449692420072438613543566254390077195750382880699085168934350930791496185330628127945976574298118625752342198973096510802860910133554332728550207176156831821556641597206978886875343808191848898042694318718586183519241820480427062922850177054915151721098476064759127266889473172768273301175865540683897681449354845947972646957477184172523385631964674590984420825793903104796403056535283301770191450512780428078715535718972328355823461383370656214978136810680255174274734812585591325580145395416318184972243917340390327921864509620920675558258243120670785976275460266729670366537357704384256792716766865845391062219326955938083086169041546796323823391312246916741456101396067140311982312602218027641563525180609675234707007560531828110305825957261761144423896819639025007108893664926483355768375424817521669859823177877072525828548548802147496885775214681378370171286566801201600317433846096779426409230601649947061853470243878876597776793751445926621474756931021219097503726443),
  (22, 5199398372047091091683984177508938396261239270564689384252591332155803164576872496575317367011725662479583295565398318957337641135667510130030346091907964599304958627612306161808445999622446316341811815648450703672296667533141927466158066791343429177498706559880738436545310470091704129885419822841081468363005588085820139173831716453523228927423354132424264239009023633247871515388348289418010138914491237673407550045501825757626267452739574036544144899836205312509724594862619657115955948091509035884986399465476973073264939904643775826944962732196478013024476499163345717221264698667405545815015660103264581740922852292166922777207370965417095299564976783808534277399532482505642692663584031702132253622982154984564087777893442875826180010498584375918778162274358291341500715602990583456315551836508073296314565392225481994545089931202446593403851343194048519193427932553784959604680195572148794512169666270347065350165951488982811810228901124732027504131990795789680885521162370668126378277251129124719154256906956173180342502559185559262046183663263304153240142829996034249796657891699952569960603987860985476693734409971494056060612072594101315605429625908457740323514),
  (23, 4617993429478674723489327160283071270324634968684909688397782011454836639856768503479340730608801400448303936279572691711915143466855386547822862768089523709829096618087831764315278547824956766507844704118743920666151419142208739589759295758357189258507769814307466514367351241191250044869294431557351993844460913408624945715692802033847431317725981053053607706523936704090134194300055734210357669896369408395343758988080726961298246890684352802162290640496203827539236928567260470937364826614397552419714965853573828447341713034721065472512604485644539879458644556481992784390913958460070879281055106120719300029702507711031559186957246562604948840584454257068630232683573914170000401853099357171348041266812933124693212667086311261676359930046746902970751002365350145470692074685797200493583812933593466273645720374481176317287508092948630574391784815401249770731981826889674180160510055236199538354779459346870673790731290929298364109946090230450525165508418111251797436553902589090247361082371274975840973658910258868470181118751769334210338357799196494915416334811503059636990932583013327352293453681309256503899432632846761021690155211679927204893366199),
  (24, 4101602106380025749693712312137813917710886275507037281794873943773363835570485229170439908926677097844807155648760047727601679036303694741881611260565423491156990361618422437625753269228074111979305605486990102516395595404656250398829075158406521046690004924452434026505069170963492574822141545454872440231986998653967067565413475848384621129088290962532061691040296564145823035368440175383354072990647316700910244946234627915062498417596003887195685771274882313874292463527537868969104257113367227281246064178850145023344528618371454709628378061698583021927822468979690264795968833645226935641783484883711811234700718323898291611719523587550819516365893329874870410316277583228851373618256290036302871607501051501890643251165979673470377439665972915913785830223196108310879317662563117919660050071086308940668312398153616270581398714880105044673917122122360773198485228699796752828810967212185455770068766423727277149096287935483221492969534737031634097446189643684072871680174244663763927280204076412547946349914967281278937426344768189368105584161231740819856914461732079632637746357173864097795344612752594655336153413499789685937645317895),
  (25, 3642954477083232085800997300318338732601774533692467624517729787996503175335184186092662427581182593859983140464017885446556192165718790974836661156386765566361215399759741252418541336953501277663055150947739995031831649187810421075039650351014557036187229989859311517355161746126893829836971420148546448906476461337971253247342803815832535305652531232026818342745074198560843955280233715418207876801201642626506286887945408020484781510969480926324457789681001507447432069591532586293006936736219866519846606272224456433538833567430503236091497775912146564438814133684247772453102664193234332044327012175400172411224717811116594263120904266709727880683283740511085827966445826794550967611424417873741231357095064674056517145773017189214927817269655113594547522913862642766920012480052731158157508231377059362221183984126759899194827550310123848615587728872533188071807730217612015599513286738738913596958145161375613681849487923749718217129496684045041780084479393937588444732734482607633649590365152988663482525935353826714976785466401571485961228330451878114553711283171475239573148370683463409327693670505507669653124133109263),
  (26, 3235593550495281155044755383715621017813549617451314598878085201363365467240938708899801378668784044828831555280207309882187182425281694825667438890374570874879226274080201447092287923317409731445287651287198733685336148423440106759662497379317577097945124741358415603702299204309299658553045233887732227883296687286080692501200354464675077825444681618408402674094018383344526645994759378430910616393025949573966397582184300494215410820188574985575474515432205860047240217723024768783016018771621600884787545012504204411948828317621029791006864939000517710801838372363566564592810002800317127655776873168508945248911145453426651140874603072503861282997383629953603147762338053417140121571262474318746311530426600176139019038434258237654352676282538043525666939596001352806002202823396519737616061396352029233147934860431867871933605765198679961713988055724151805827621337560327896764134956723827882944829548149681003930309397550057959374899320838859533102618915273904040808312043400940595582368473444740838099078625991781560356383545500891417047492790663611897689051603798619923033379011746154354452038439905155991),
  (27, 2873784366470816169542917058979388593987591360805284712922294351732342326407441651837897337082832306190719479455318951607038566885583784347890616085701582326385587357129285829224909198438930124737024935172013685524426011877727185898895674973684909544360539465015921750103726771123257844257105418754553236443125545037579069758442716341012171326211676789916651881588149626191422253698382302831946283223873874431703554490945152746385879606621859635710781240799363910318384204446549617432998484974362901788788853691727755854517673285214326564852089930617027370365456416338412734368027615560530192140685878477719174722657570613893310393430118694827505308775759240775590483805554295324150689606741470451410792313103417840392298551722507375810876937360319689951365860117818814964467843726869850271313052079330303280866720042682853841060905032561032538807188033037596944885137812933678587887975718696259380398775841110536863882120003223667996746746038113421733267308446965222615093979527484024251988551395242517082879258674518270793629692592986481273734865424633263631522674772807231849095123061056412675207),
  (28, 2552433257170975062371558069944111752025498561385039331492671272270606066720415343188320890711033148762808429359085331599284418190563490087348928727840870647314048160237375508780606376644775211882772850111064217573542209966758801492774273566141907818231721470437326098415503238954314806060425277407078256245091616246205392411168555188623930995571087712297486175968382176097770267307727288695517786893814700904948530074312439781525029001035901626693244685634236945728135785764230555809614093442507763598651364375069293756602281794915069808710971776831393656250980670168598945442815483588435765035887600697019937176754939048541303033523329545965807274723326082497607754676831615326017649735015503335981596495024938873349431515724443547829518397054598750747818108256097839194658276820264447429946465766019518246813832344865212560030712832463983146618712348593488815772067884392583504125027980371230914554296786477797112086561352388283389430550401610582253258766055204171372428465807415543961955869260215853897563724280573304378993923871220676882868098172139430549899918376104324078995066),
  (29, 2267016136744159970791974663079414888522843228977378632553881634597631835646524421654007772016419268988038515564718516331428265132880453626235283670220139283434708662951803739010091009262235594268478235838512699828022685514054938069960564726307018446875685806627266119646868186679869077746081002576093316170790950140552358707878207957566239523192449012780112614053033976935649266788607346498622596192035455557490508687582471201103467502735934586147213566747016541857793954317540672406804554875029203123528946467393618248830227468453281930827821055384413286002370666215830843854031966979095193006690759203853848813032240265192283168705704550315064172226483660219558136363493167643792974616135574569103240408821520380718824540248358928515716699879470372230091670491718186203958457693871073802117686080597127792666780741677059632871860630718759186010199253557846250061702596812507954200445965475370667379663479757916474393341281074778951423570195236876392705312612193768717868150978339388172009809953517769402994340847128484078269937702084219346585445146672339966870945897),
  (30, 2013514809768107433074351347016163752570683369057063752178520365145491737376785049410158469769930212688868059162075753737231371608634271590141086747331154174390808784449005644491401144692703246478647990775122682995234266743030498238940897528114350202057307941369204555553044875248097356895503422392641141414433196881910143505775122470145469834164085903869030630674322143674089377017753193170225856694578340160451774034693385574095383785121069977966251253400680787176361738823299122618670935184797460305892397715430282251989693367995719613573434936122447812877410650065993580731867667668940942915767772708432025108739262697512044426956465331273652681507434542353076586003174878626953698526663029580831680470596290601263729598158352125074528290698187717235621949490027806178432789945053281623182223374036352933648763918745751122094254470401960754024874367875669172257143811136437748602983236522394360353287897244105956072863281443764076570429432158251676368623295054530617556162157012038061176931221133601389008488317396421231169797442053208719587636329936),
  (31, 1788360401782632763770617550004676683171249499592225218180160466539075244052264751810450633205441547479098861952350036977900078003003264699934696653365358685142443946525912585739634750195464608796838881147594889555438844978952722460441281996439502682488534469439619926001718765902837208736249756940677729233153535591896131728463801175801359769123167913148433587176232582860282274452843068830622600641955126823695939882403417844358764488960881831880353670038354552375507943790197002286831754023037953339719795241140328423305866025217411085950257106765242299373891901184820283511253363272551005164583079511549547498724686308663001378599630028607232349246778059383281209639298429265693217631459839013666878960688463914045218429740831471137332503465528480300908282226345987871354773102040736873800811375159387249267527310462221249455917496321007913745196285034307650920136903550068630440638081495697505273742163934947751045879992232383522577936495155108573367863541116878169263192274904496655012051586390301078338343269847373131561791744440166),
  (32, 1588383115509585434657573109872495135336751721038639588198424776091621179150609803938290878419603916357912931678486025355510623657139392716823368568426987985936839886314858188880505606338504845264573727253626283700313477215860761876960884225527456097878803650686456161852015902122723379666621665998367422157594704713983053531411123652863028791415083791462810687342170254251174635829806015275886568029689723029336454248971345592417051649809790975631677924478181420439435794658294050436549554341674004425563014888977212395531020352579380225670504325199795672821991628165701895621428065600171834345729523053551293374245977025132817544043869267626674837498792546583611287792742398262365883303963689795641819537583418452929589697246133707101442955780933867725888851567554963204495522075595380559946413718404221584297888181000144568297187877401320011526887612204363940853405743076245141125554328366479773192461848255182909884208069369384721475674940274046079380782619534317413169618388491859022216257952853667784299398687060695839),
  (33, 1410767605411655044382195189860057377744815931896121455684688471393561328237364450468811476030120025138006381004112924387984929058116924492553431632455403671289549605596096025022190627560482949093338509022853801729903745605624864510639023697825223315026079967123832305845014673765443492908231583526042628156483921104301649352157384367421453459746066718421096398090945999341275845315653221471687243320987861945438984217676697817615496558565066382130111621127618114211404651601303210093713085676840776094129354998729207719711162986636093610735567117841250993013476359846006706297326025328776658001295293381561681098021521804455138800946380201729269226673064103590985795922858174481078865688334286462752046609603987057443731946210717657773782406378520769343450748418204916528247378448293111319804402281521788789620078312320360124922304220060064619581317894759707346308077136189228413764995795732350307114269343870378369665336970668420653092020894599551938187396176859760171262653324937065224473868449714427569191),
  (34, 1253013342338662522203071158186414169436820471012223557929280230855746545835120698383358389510567472268381649272351519671168832084126032292946483621396491467550675069427379189243375896176010566431215457286281910416077558406775381817018492427330034596472580055284549332451746805039077859557590324941145975560558798589122965316959805206920816228493048127101808668584857000509465097691315451291102506797342298090315160649176409139954450634343399935402937400004568249009699875666454888249760960287237989426563826896159927011868399410580024794822031376372373419124774301315572909594705865466539118033643825114071733161057378121680245813747372764724245847249878374848136959961662195334093911791238697417166905278772022771826924604430383931521495715435381929088041169545313503890906077849757262016863327743387960331175202177738278705090262728369276632720756771021150513176147112673515127572591030990472221665126823710538284097685279179589335421331796004440345984182011649011113958075352784419625454701),
  (35, 1112899410261523322067001582571469335590263123534549881959145179894013804734711259198928558191664460683377508596935143538988540693066435303565763498128127312889453422546741085796782559741693785548887538536074383665640084150669161927625718791802713594219156559657193787990467178347127739932638630204979210778962421737234656866814221824501242977507173906777113354448141932857496494624517651377122608849031426812092635179832521234291345312441632356624729321964201736888385705827515312843571961067683034916273186094899391087813462683116925660767922937345286736765209070384971528458694016640506971299587134670363384765522547361949221499975050967590658193732069713572108118761675707539410524190787772876945558042967209064722520120772541877429780920029275775694047846416006278059769095066301899725144785195847524330425682754812250198934777983408568212834189285593397251352567858627186461866341216834024963670590356302690038174651850873260159943831015109511792061192471509744079243099242),
  (36, 988453239491282874749949418757583106555398292897274346443100582416542676813466872800243876725310815297353959688953373285682368588453077862965248214638160728072093322372025706885691493774861097756423635271858706283412544153739143254934935829472515991650157894355973971355967404134371627702452886759120385312731566729681461020504753239395975243800272831628422217585365863869463189064343215758465618916109216491553541146266204041724233548061310052296824216156238121082782457642866869936969132960676284662347065917188644071019195331051349302223759738346640279760386020660451945752744289273308086041990799929003028750633415363824712133533642011347071855578406419409932413274161804079600089678324861462653999226908794285419028283389214842249003511874918590752024384369422186753217329183245197042360028246676842942608950533495812181616116606067308791580463708699118020489674532775225181521003334704307887851129381072130892756282498960457313530338828245830418322043438591),
  (37, 877922836198837041932163155483003082864757638593544962344589695332010777324791248426749235131956666017935094955592263552229088793306036899791650325867685918618463549365462997850190030233054177636351654822580451272963555771115442667143226602618830962114577113350057983639058565380155965926759483117897872406046781536024454203033664082406884106674323604118914833019609834546691076002006182702736701619289793503490111289630959263620346471693562353576602130216288575575416746917541158183516684672622556700157453322839984995359409265688221025114112845552383663125199028008718101723979336440893874886613030878384540439247707278489076089456751401998696911669349261369368656391557721869440567227308295282679850846335100857949899642920102173048567792899193867045543526635739103046990752243029642531632299242923519497415310132896343894034477602414977094826526934899096032194940030207106404982264388913602889343064841687222997226140526543829008421585991902137),
  (38, 779752117273734983211286891243044190660034364771136452695076012156768688890093540174042627840714678234033066267636162946315082905913312851100928858484840934209907746420713838201431504798050629703813552795200185406680737851700694041589802431445878089766251907104199019690044512920764937607449446842022637504830879285284623488645691633330911190514485015078103203475821542821278028886990906349232080921614148205101674369496569830300740596658848278320898268974080708595989036220256751993107815676600246984761910208415730191014134448698013316636754701450752906114837976428641445879812133236343506952987027852079464847817648922728868202146800271366832728149633829804955557362748292291269374239709441347397387096510701804621073982491664495908619235137538671972642195406069887618323306151800927810272204207044204676506114129071405764431395253836710672209904766331523408741188881748073534962188955412162538584968539314191309755857901243209281),
  (39, 692559003278012659886619398757407309350528348065211450452838308033865769429361008251257379369603328308384969884055867590103070762564456448403978374414705940390867871197072235925897868326109901191008030272913861029127414638782082084016589065643098218283980068604572787610158477769721567143021987696466135711140648913844980741668311478248028201469992341124195783631843574818499124396144658546713995892371809767532828425267510025628526123044897019761650296002318242140577752427061553110139431536949700621011996633765050124355477784093673294180444078387330186205495201871925888380923299163386222714942472160366768737871706329510728144135399921293565304383554612152456982471173094735100878483334769580079471142831688004947775933694819875799446931573676152762026945032349432596175607651285229498904152550526759823473484236980196373897336763395440618452178882786475907067095528742068028887230675967838213496032148739677123518),
  (40, 615115961080586451434613894193704506412329267180992832866951411204523723762153407212154062140188762953646259455910017455337216370448475981141890466482380540285679440063397506931340188899362250611869569746215207634999899704885441286188801921650443043382073413755585585119366477818704320891409383529798125478046199192396875730426257463708180726263630817687420651910751035319432011179582379577760311478102338281859367926086014741111347521731049088355273237143964471382295269063975455008284359630423509001316691811372148186876098063635586673159283793581223814212663901053168642553231097000318393613163606224039135126014743535308618107645250144366647289425396422927240103359942584330156353786894016990596404735221390827328572885243098969789334603909274392644197315894743324925331316088811205222246395232929166046160085025089208432564735973795128058753901170795965930538200770200263515268622104169637659286710),
  (41, 546332722244813018427923440274117443181571625693982298935977082425192159910963453257225315674305269216013648661132304721296938675789698441491848197613259220739220280730801533094650584093484264724766165040472303088187248969990096656823942316417555322038244844753824333991552052379513453955190277346359991172585228273441425925378287950256208940140501039730367539639584506660054734880171589613172423155732807743166538913687046107109985806839413995728043700926357732690824438169753597073814875772409786207235359579653795322570267394027110100877628442482011775736236714525789136459991350999617991341921227455550309580886388602569138096101805057799809886744361747308289207973233906611073778456564824295668788455768837669642713978115512916579616014303381956792179454839019519915327700280641346658970042764652001617840517931710550680653467625998848876464541477193403156494042018344813181718975408),
  (42, 485240933873912889611767668818497884132347040034799462997978241080853764564928906880535575652547412290488311501623412853483052980004259273182050064976496885391543358074765604098902379051475188350752599899487059588642872522424116907990279391536113574810785697201856016365298067122094469502525752602517241608471387663603522784982461402457259010017277032239390079110334286726842737981758879250687488528308186436549918386388605727389290861336894717796768613614107966872718208847195521840616549995134919077092272214037143795422325459533308757452118282691226474725765254953426732686452221059057163999385519964675084087746141164956578749486466202071964925424501745749954274904787851680480961576391341993851536587099748699256869486923608196060078207532754722083658328457130495365775853971526552891573453237255441456550855282304689928671120433717777217253383852591538051657775975501),
  (43, 430980525821935730305465688140282460460705189840241618099371664056445427181372053084492616879151457047154098504233990876566101083059515259231520796308861644918191726066927804673978246227515259285437294980776619217475538082253290650850644603132144137687551253809680243534783759453205897333667352380406035873603411718031629885698882183559257347169205975461977352479409494070209601284257981220475218328253635181536388051651963731495193706204466759080575598838593053857394563254594623202950417509721187031120319723270306512842166049903173973524793522158145981948219897877984475561839184667031246599613574969781497950750859074600544804080978968989052764346749798980703287292558616440440738667040267671659264897662119159446060080641087488381912164647077580996121459926628562955469788837329088218431644314597423191570366275824411802249595762205479698029713514107480),
  (44, 382787602346055893236945245070439655294500693565243519316125428626681270137084854703826940018229673311930313190287321035825432978593223089191794127747586125635231418790883987396003866722008511652735491081203792284313196301053300132551288516123361118872678707752726690603689051985183622003517903940687493567055806029953066683418594110508993789595792959264629877041975567021278308634299671671716161082584510228926320538187939637154599894991541104069463974662436011918521749270393953030421815327065893771184816933142968870033707632469374728912183739722853645427405922300778107202805786587005714230056430244136479383558523889934518686627175278902011912068055423988827024657583781755237223567982105575146910156446974715355731829397117327475165598084510088393937715704058505537797420258792609808002938329748880832527807411299018441760917366977248567),
  (45, 339983687732519873169807707100935964819446700705958967436662608290788636347025736695854764336967922490561504113242846160466986727434294270456781342003066936184115692349799924047434068360373184279049488348787446568988185144040747249318674545378917737115064818388815748444530632051062899617720337462316196481918325296637241557198762712132825393817576948481406357091397655602186202051127090635672347381062313098737496526664808600363795764585364623344255887677537096939765022856670427532699788555867881243170830635703583216228840261673594242973225080890356650658089013992132752454440215288646096251911494502543525174412728615516551808786568032916542670503257974187193605964099432858860270125422172162629856811087985783629606994341767771618480770512026133899393994722741681537239588318838483339684696345159204599484839481835896501359),
  (46, 301966174494090354203208643378877665688021525573522718774913956486364487379292213153735220044120499908811735018598279925412007595656239261136199868659318259325517002482306930076209934444628523654310962803654842018185220302710631083705967534790316780013092239736866391800990322662108416312687761941912263514777732323457447712694845914352477198857038741520989685100903117331163267692005148738315010884821241656213732070542591770140388925683549642484909001910525296037359816986011217182381032384623789909134904026931166410426198113814357825753123728098033753638272562850787392816198114162519923846929770109787796892547209748640508921861491766098873663826862813009014438681149715232508460382682845986874492726115159514453283479594397629352289300865327813876302487455635930936942360501881741348220697319107954468198708),
  (47, 268199839665053433715521296835641326612475226729081109028134865211264517277673416088347124515068166389386883803159002995788962576377757750844935485481511729645269380120366174780660746012471164741030487323461319276285784080395111358862451005487145206434866933373893243284227302706328879702248534252238453711228868313029818225000814890408372337836366652598964041496702554041684895073547897785524943670232431251148821011261813320175410534511762857148978430908638572351216135293234093164905939818026876443776816201558009510028913444378517567579476557099433212877823043783547286177916467974298472949955654142780342154422128583151153365694043265975339104257747875357843926007819196087470209338456432777962685640124494494318219700675218512807335668372334987915780592208838531603703801856027369988753929528),
  (48, 238209309757534123366725695123607470794161339130363460385655954060614883068325018885424377579325044051821950780958006924692114580579820131383303674766929515398597591819509953587990768400577898946890897650867278280161897315685182254556747995025109970196840678816724828322211086228461215385185492577096647439137105815322222225333218405397872906117248618018811493854662502110108920979441237761882885056697110513563854078214083410563245859101566153577073319018017671378166975239434808705827979473268183617000307115535533244572684772905645280499796391211937053376281580614729659210991446978119634835876150455249124318490137155074698245820240697565716751789687810629906501655543142767147301690131398652940560470089388783825032322163236520063023342534519744210171311035038978376551464531219),
  (49, 211572368298304279369693232769484821526405705976226787954932095800730896464420148379482683222247664124981838554373734719527992164591950396710872640392741223760209965981805228874600312151129394587779853700801093309461613036708818824924126938215630998290469593118117357111169249827185994022383139589188299192771245392026020177841703316924194445700047352126408210406865189468838946652223272777410438089470971673229745287431602065855967842346081070663678039951207286858639668193374275777745597271745847830927610430095145776156203040617882814293164540051853705338766556332698584822290832609514916656574281618765422495624904344172043793217128502845658006350191241624293039676933886552466156167382893758610057751613193123345707299529012217148508763050343456743054965037277705),
  (50, 187914011727400768742851184180620585404939693771192829182369547266476599562307943643129460304970687388226232476160540908645453550221247960421577447844184938437920149038191886541732245089751090837999263046398490625074393691294992413748702047192108419244764212464171906708878924435375536208124527875553555963172286638782732962739508372229011284643553587481209081961043427368917714715680883967782696729139352361604694698025631235185145997285294832186671801210876795877745614842034649460413545381181050826028687065365750845269159196211200438079795721342657606474171653323592648340103817984041766581486553053937219640738553179532923099492071207590653114607008025867350289938804607971206774462927430746318100756414592934076396675428957258843868612742772280831),
  (51, 166901169975553614881792428433709542941544966864504253154156065910848183722629401803048868611532955880730450651736242162394852547862179176095039935426329839869899083472909834448682941080820043931383291393095595998488142748951451323482499210899886184864450370137270775700031520021381656204758820844069371398229219772170181320365435948102670493802994069605178186295634375044251009280756198641743522400775657448281349135706588111325920372468597157958115797709974223830966829922951951895863938249179059736027831668026885973847255356244092900302832040391289296113877774481940813343946008817670525053674756985611211566310220952346758733357901552617753116179518185988552278928984848465493584026523733234009495516201092056144350283505919448099466),
  (52, 148238017394989198722214876365011557449744669914860562758455908564240972929396335550269325468448379797650211041527194260252060569210881568054166783613495378279780952396089302018712632369799229265370328251605831046003230052738470540672217760577958011368284248901152538512526451080495633683487759629646483242704632212322276673049805011892994603243734033418036914113402375567659772500177142266815068078835026354603018118886677650985082205783152852846273452713983224370358066978964393395108123317345551246767466640809399119337640401784204882440573304466638520223917910098837852231544580396251588090681866290861860342269552136141145658889651646641656611264985000802559475898819119300957984642196225446690759265417404432377149720),
  (53, 131661808029360713656592770854796827897402481117269091342596228557174584766443637384611002843330856160809208766415287612189181479735595788668398098346887177564454171644940677445399329830328815620117360031520383923092951488401424900661387283162569394676352490452934417797616604220931830948558903856083287241561264027106304510395974881810931112105535141006436138152135152413272161498063392314610851398737591922189878687660161133901164269443423487417307201531610520217078250460451769236655475279384184319276958738451339898540202589483415124017989999642771604941119746448888692386079783323734009518160374224843951496624507421389339723800007083491711184921562665422421359486508846165133247370285641538547264741861),
  (54, 116939176590379273624353058001121599693088532741000113169215469395411480937954111953764054496251991859249144451047127056030184916817847103720821345852497894296130020224136323942976025371859328799821082125875867928132549597871358110592963930480951800896072553434472765716359601614498063243744796703627271975433328568931444966827882157074569755937251486436369860454666188766191371178218297968727638171364705614250114349428750756396812470658371581703089215078017097142302727480963611701686058231374718707489927058430035378156233515220247453257479637862042177957566203060047469897173833984452438070080894609220989069482831713043061863819532265830489807306701073879413190632587527568527165744651098),
  (55, 103862853065076757540416465849300064080957308525038225466133809469033015772869147679688110855516323215070113165506964511991291759622123245912925532926545418270573141310121292317210866698274345982679004470434086815489818767362435262928429455481350868588615578323561092970295072532782776866109254264821881091555530884681527393387358205345894782253593317660231945777741281517088016273929942361560315449827394046244562454981954789485661841787732008790755944760774236787728167168228863354299239987393139394919141240412227536220481135087737750754618956835144944180967496141156589999780942203475494342738421405022071075197157692118144263388340617852020532198716149526114681334388762612),
  (56, 92248744700886346626150451674623420300212073388833234212186428000485014799264485178379372919314288612904275107270533721367958050997487359261350323304733037111057829078817944204217844619786073461897543967577306592603452535282241771924172643974971614982914592425503036674815656998995127283502174183135617832842482317975382679668471587641242911798516058595901900523774799550392047330771488696058858134052422251925117591448453817830484614390379303989142384307698564274946912433283201420092885055214401985059763986677044702695878116045925753442589240082190114147936807716879273205759841699393119857366279451335925690649762910393757391085211318067419606954522171526931),
  (57, 81933344287753391518924207452996148463169972057714803719517137550019518381261233691451041417237462024651458980585914474540416395213765959915413191930661421575995714406877745899497933517668602953205001625557625331569178047834609751509672249637503131365784283576903242718730975281327444588358567027419558652330883127406614239991534849230325044693518977539349535041361404452613719473694063002184732683912647354568680270973387553393062512174833724375067703731931896444892185894685033047599058355113695654869235967139279228279763685962525803166823173771364819064984639454075728522467095329313503841675574524071624964333190005043926730563506805441390271),
  (58, 72771428250243219328195126043992098138638096005786630071353800890449024732710999175432564586545179630251314536260243084278611158434758794150651175388779090617421932100084668347424039577277391545520369531885956885151615891837601945500310029978250521921294569235752670452001488609470119758798881649220194352491693808020028534969701336767462773412430354960808266438333908749236304075669652166634731958311230788295722267924356109838359808743451176168667355533208006372095784104235286515460546942110220879659980571762117803601479884760401416150651623417804000128989071399161534341772611707246232295537016271688135957483393987094329073213),
  (59, 64647524364912950204103803361967453068481273954881832996795701145068755962361792805511683023342480039193862050801085668584735883587619643292603406068147403653797853935609976074529213483197261798689610085974293564204272896665006041063675031300209892200170614816891739668440304972424859810964931722034896224168654240051273657437506177619480461768699107406212229292025582172151235393436778507240033936631175990033186309187582602048318709841886644103880722166671741726687765473807740141658459647177010354162116803948981848055372003127151627513967350717306118076998998408465133181936859655295925984180982394774554241357657),
  (60, 57406534175894388432375040756920966195150282087706138278850407234891918845815655972179718253583194490111168847919616516923563277775343945461705301756664761414402199598073000324022073494567960593506640207335892499931909877512139257426795179617924404884264895390651776109270792288149124258034668807024626343011129861182188118059819130993047336522718233651608807435823661546774690514168000984153334292023265240959029581587435234190952039337932727346285747752913547225512107946222460760412723390641347489484874270362732840755728265871938684613767567953044904735194722039758828153520872858674551178489061738),
  (61, 50987247007577383427952005531486182710385263377192728805083467347858926289904135907438275985931168480045433881427794293499377345502571752257755189733042285593781665361440844177795242137822532578983245540768656286042703388638753062104401521798756724396136250695426431210640196521998387522763777977683005281280450108535231125500992691016901094880909790810984141688768835868824035186126752741595711238880314246532236976930606874909626343248887994675586761842374795381631828130084445027504504500289883997408630793278965008110502541565228644958808410421190373058749163723315143765888251653331),
  (62, 45285770271145842262220019588674728782264004041783588897026601101205933590702796904317281413130520904238582115297486157157599026628676240311638211065503857339616888661804629632245777542768635677006522641486106955326592362393968249203445851295693354626117820691416534255570800837826567352795189611313338479815816774088944923217679419558319889232134941744785221132222551914184681965957024021976740461754247844956400621300828577890431512914953603714255901490049052899911526074976798123897785131583885641081568421327475064321212992356334910118695855521136298399828234739644044),
  (63, 40221844503299970049902299758642433039337266111532544492822560983007794105530270851954346018837286215274491474321342938664848178864509997410074918977511046269532340833314654804548265596212809906819214419238383896992438442141631489944841837856846799214790905420954322326436644351501819920563181730901407605739286751741136589158797215970233839223704637920307957907042735833891147050188981734250057603459071540609863347376790004111919422904414141594842407381516684002603653086118042043773469402354360210530376702964915803181180466542401395631775956500223176265),
  (64, 35724174301773680240066529523356776725958197053136231118421304896601328091924627792804920750051631303383854209497786732675520389000297639342217049074477259705570996419908316020767592896955407805932315557288011586725416859217607572656641351789633114272154961799574196172929186025318013599328323817088879695509215587050074174303131039364612284669560909488301259046717651411112319118394828500334688080307387377027069948119241471814869507091993763772725039181849393812961141568524171973584987104514201065782788931196238334716116678359255429662585),
  (65, 31729440664531992330702520087722350010680005688563967491899237820035452567797892320230117762783119861495772071101865427924676271238278954657442494556498670816409641890702466238645356026714517101043334504527306471013794188702968079883481131388572022166198450437387705335316494707640892181293514959784201212288748562950434046110294241765704532108889262863789163072922755630847999074757770676744407495911569834823367255872865387036289191382705001268112967081727581281319621260752316166400783425550582270075743802274687555567434026),
  (66, 28181404020101001684148337379607563548301568175070163310455700354289549708753379338319696388681866203566342898020350772354670304261318560316051096706583002704025679731970754909058602340403382569395860289323012515018112793170671917724213440448464734392017520673089868613453576509922066503949277814942625039276318589420498455633641170357145294065073216266949082454104878498695615611313376765724116436138083822200913744668759849153879212211692789437536780637590019136059783689295898801919429902689569462405561711141),
  (67, 25030115284779089837439559220702974402219032470887135441406879297559883900369096253180077923458572816766672631203505616785342579975546110938256048111877108818488751004566630426740688936228548921386104443461699697174375049465515044729050797158778736244863197364329811400258645606180819505601727594735935707085735694452721908831271197844325570395733456644537465050197075807211274122243238786942572331502963790494181171856442323902059441835913341181869986039304911633636040478622590350189689257187594),
  (68, 22231222483896153109581799504708163560893016772855090978872834953734896984466209717081443103183651333079990886983984982094420109613998832825732940260517327363833378765717220477003134649789819412172185666803266997960654879029194344472802662375247363363213522610912144018401483787441257557900402053336025175987563945772994975346030388836719800311750518741695278313505459904263011863611534255004552979504951418411284485064822944432428827582555326945808969528683125174721839863272271453),
  (69, 19745279401337116502977368519621234847246589159381140316045795731708933696644880320329588037942493982673570186091015743201773195147178364971112362597563799626485971983343056156003276786552650208917047813613496723327182684921885999902529024696671770459304312326851634816337667203057287155913809761646758725992510616864611678057604996104411902106822266538320475529137254550200751281010275866415001096416513036292579680582412316455057246357434461925766014818096867996141),
  (70, 17537334659836246149591684799825347821066903851086171898441283438395241250620687519133537397121758463280174029326283287646888068298076692963835549147072619909849392624322054987307727261670087353472875455634858098762693262019434894794649868619618272401721624027925438841274315479103446300526218857993370963907967500307212834038836635856584258097107209760433632290497193774969117461176198042674842347042314654223144750646929983416662935861853796415241841),
  (71, 15576286405143225461846655872345532797338838724128664144552415191790761059325223202896063142186072215909870067088547121911048268008043926064562495349510017989176206209251649975046629968097801058659339231097972738971150223773445200346822079979377454689970100606044014609212447635716076080089419442501545323289625338028810822582193490522148308498164534416756369436811161535533064486792879990891054247022397523772242571166247486974189672511),
  (72, 13834514851379072360808134330514438627973206640810807654205323281488257090156756195121476951552521131828878564999073023069769210497541529766218625427140492573884158388254581811777562714843097648655215975914410031091060715236128218029752835471230389054302111212763575091955263210362710392430464173990355678741265982677757597719394215230737242264499274301575135977547854403545541903240309625034983545863859542169959470614570),
  (73, 12287566579078829021066310751574292116399604533836796929072840037650312930228435221869388755529644044186312086914550798378189434472783163336714461089240511255876571931186006135879741254607291680044016940659262803246146353085074299498335652203072386415340158409179166315632398589234087778369192769098063910890480223058306415928118215875976952383391337286957407091025013253247526652860199945834307994418007881),
  (74, 10913507908952426625326797015700366276185617694273583185619576489477820006560821149141704839561378786586190116573154338366927253844321047574058694257741422843428744106067219389658047190741220686379744204972938163720558574850914246955452670642367157675482633589355258237654774631828078728331948192312878798140783700415191436544489999759843797250194444673541011982933091587348935681676886203858),
  (75, 9693479578477229505969489366953268024307732177050474712300315998465084885433607864839321398651026493680262302877918938442734481651688916794087640400379559082487380442346362304576678875304585417734213120723026448302622779355704321258966055053768313321475922054098804093501059515877395364650572738784897794795125090908241916091107585329762368085315001459241035838166428437387862),
  (76, 8609239728192882959081880534491118998619264434850766877019336813788252652581181732932252207757617692496667383679893901645008267471339282699792899018321039502684758161284883795763362389155447600209388042177291305234211732454554800408736834017411652626927050863066315028233007203062842851440189143901954644298528391170971536864380796771499917104904874635699999429),
  (77, 7649545177195565404220914881964368409458781151744987396691479775833988373775906386343271244469243551533084780514475190948513807867934180032629968296593557728814731374914487621973315734021687303825908774269666933942889550144025221976854546958451226353037616181442736364180932365522775072427477812622331253107258321764426818829167608842699848042991),
  (78, 6791492645246935273444952589789819564960491488249049987846787793114086454923000365235561228912164035713236379128624602621720142745979259114131864868869314520883969011246165635654399510689609445887084653528485530882888753607302414741458027464684782128790859093356313718292036075168700052366881545342353683620001327109224120375655271),
  (79, 6027185919326399004886224134533444947423659635193520394885404712577243247028039969676078664176608743468690314389410600389109661111906740068940814825483274942611088071039754322636181149006408225746735700378039590593038938983355885576657244365367147447852752084771484151903153332717295593130183200623838140429769125786),
  (80, 5357544820084805980932673227321829096530013745905587073470965834898775065251107221238641227229802825107314043211257158538699244884770697586393761727783785200001150826282861837113227316648135229984674299974963100951276037510209554831968992909004488725213735401203030289992329174915142741423071628791220),
  (81, 4758440169640096938231878817641644072860232143919956337679512305231024155551167652198115724499397225721432268417711566067617292632244093306483176332669459164281994630552893774364644754657907660825669394842635316265655352130306236144280405918750830842421774471634200529666219236512141096),
  (82, 4226719085799388129356703182413663811399358899415496185042230889124783149099381262318302609933303458879333395217045031374948001172007877487436110621245456911829109666177171523788969535953312442817943953743592520520715363217262372760196616192666765679145278792237291141625),
  (83, 3753758414402353448992644284524518502361340413160895888245069062673606441274911202253643928995438028638821488449336495908913080203434814134958354147485165480060127137872185831222435448483900544289776587011268678966517037653413230304676621672321183491494349),
  (84, 3333693474639903147631346812925385230391367553693033406732609556459329525667538084066214395792618353475530647401393992956470730410877344329655125561235638916571511615995996042546139908458211686722790829693248793116021593743348066151620947102),
  (85, 2961193260766430500151713405731624066238965131183887901609760780812766467461226807708521317258800243924613642552988477785663110747878758201575299560909545320746950071126313036102400991162892218820077306671340496290081358377844),
  (86, 2630075799579800117233433166820953648991402766723261780961650327067962267625151418630739224027048293356109706833323867841849931546381298303601182020607578526883828613310777305220183428294853491058054078703795392),
  (87, 2335969596222566026697261895189200097500803821074362588553951435697898313370475110097885142500835761741930757662355425989182028073720716366953181547336605561964656983222450071040634340764940963583),
  (88, 2074754202068833745887667279735404963883725981864238671912896197651396205724913033778484456276971796739947815586550758444742479639571770375360293601288455135500488177336913464537643),
  (89, 1842755090244894875095554983832622223853658829694396141637680295979205904596690529541198626268327787678611926238309836273473703461706735460421459623138587982013465509),
  (90, 1636660405726905761769695376154844804426551187356732095370975005264878532498234770187299878706501485563044990605124728468390589837147225367542353640775),
  (91, 1453591966208867826985231354441445892515993931413936771899018478825105634200334715799362764557848346851602315240468238159715979639176077),
  (92, 1291124939043455441584848889808033505233464437934287711424347886032151059272918290622778419945315397335978348024632110373),
  (93, 1146800937116038777620918783220057777339179396178549064570485151675448894416064599322376966852859116292615),
  (94, 1018517988167245757297210885746990280740569079830903852354183227277595037494893156661341536),
  (95, 904979008071666964679962007301319923102437700767827693130390166645589473735),
  (96, 803469022129495850423825968753996829826585030480229083920660),
  (97, 712550234774042308721127277004507998491573279),
  (98, 633825300114128775251927030404),
  (99, 563064774870925)], [
  (0, 70623351607012512913653986739313352911983594177139052743259321345913775452361149504904901460114416095044557789000661203467987221860036414321316731171093656261864382671263333502703938140352136053005468187628590318562834619603110184027002968083123972203726583512751640055511936424837275474171834163636496748298362944947876838585784025057517161922700590194129261585438812656149753610070379550005498165534244495558052257061730116492193657380868964288856256063090611781556813030937950146144815259086688259337323560529148851130734335054241706753982352029903855109515273167169473188791398921657027697409799596638332510699194298157367546972385376407196730959244754173361948894415093977572871616467306645147154046804017385648442677697472247090788775954056615347108610662068425189981445314628293234159733702870452807539770082429584948834844968699992595017746242027214705350488852850453037941633838225732686694220497363196432182314388362755278335084109347045245070445304291251243489662644248748384193476605150489370421393174676427473551225670549660669401561050865891270663517915644325125558229906589269293906897214753507588787986075613105067871100973286347867478358336058245766122825036776413251207810447119292655829725264295993211229598068280936818602614919892472379574689564819623429549518239114476642038407620962121941801145680895466810186860979334092853355476819720690108403914397839978379295495243915967754833748779757694036843293660225861083513117973436471670339221271500161822649525123605314392330939515535360),
  (0, 70623351606971364567897307450078161185719471337804511812385991219369717854478602280651382175360727226270593395929193789286947287752439638509538667621548194402854031330769832287385359061081396967763859753931644847021499764842348090211400927366308060527343138186939739317918972180143623049250903734477726032750789393125579553188935631047035479751093362285043355734309457495750808806824418784654451958066575413191806468397676738386009305322651717625936111936640456559515052401855721211837352403034504364268358055966141250429255232328804774837086904723527307518501515327431996405982090810221249128825010961787618297436479326309402506712305230991041068203409136600436253802039991653817616032101526524339806307166957151655467216761301036849736662109005939834340291870867585106574430551613528157280865523365157192175008122151964493098132553127358131203383246849854797544251068927600062725537137767194882663472520620693321989330292757891992826473676413018186192853628961624170250835056161144267114058687612077817454150709966866539285477588240947511733290837312499205417180533228057719562452853374692648455041203863409388762001690452538263692475142248487976118916571652145080561099413826984727468289189220319944132941345877329801656982617947881795767955403037318218200973286959291683638520117128429137638662607722263296472578095680802953090634188138679064496298815679893601227643612685932716109745170919983781377159003356902165070408813375449866519046021052168964691181517235395111796599984422615134048452047716401)]⟩

theorem ssssLow3_ok : ssssPlate.lowOk (49367764071 / 200000000) 4357049400000000 ⟨37180115858359600, 15939377645640400, 37052486930359600, 95721696000000, 95721696000000, 65262831458361600, -1075488934124460537, 0, 0⟩ ssssLow3 2 = true := by decide +kernel

def ssssVec3 : List ℕ := [
  10577145261580740222266260594050321297029652156214302884100925276068067135603738384677513123333040854932970666426908583898446876309543101097994728129935760258056538739486125983403230482043136583868569687998293001806427367079222672327522226343526012955031656485986371233272534686751975740591076150550982220233847172943815534382668393522067999567376593061793149893666500360348653263327262700489016921976065923523146389415873634082423084259631202936192252479126852934581742891141828987994335032169780415297736791551861148142581254562700675319125585702582848346055784357551308164008578057860782161110856982391762665153005273187571128725177249187733398496570488076121600842950433526401421537198747900953071236490720273792993068806707935581389749570435845267034481686085928191212876187558129712037453233320901836492342931523243910479742514789690176038365327339712136634134779214081332504143233391799384788000919778696820463685473366944507128995227806378948543901987765980968145451353898019247279333176530331105610331076752204969026439146146086563621808479917612741302946645673071913362752811322967490941113792147162901813354719334244583624395420516819540831541533390394417117136847624307947399453795477822595569195237450266294593304429807076739913000695124364275728602952,
  10591361539162983160731873184206310612532439486056685489350193044655443852219146040924356139104558411105790479607109598118951088743294174701339791666494767583424381217569752827057919917606416926477377267033868744710655875815738473709404796324183763411281156797120012685878309957928965877111561545498557219809936219181963093851938489935899380169367288292155660575119031917122035554876190696534924220602028167110516376076537394448526541512948060906856669767189458685228248535452577665548530417484502978871371615186004379967020289947967053769671464346609267848082190337610000189632006200425451150918262637630871261423875678222143786752495758333293990530279265296327046980692005708357980406033698705927683020344557584657795003976114740448112115081175579480840240969994937632575260972279031282143005003630431707298710359744001777436621372400264303792685501664620805942641429658410310997563750036293019217625079331059574940222393681499942113273495529538975264938026330942945263622765169361658275982964248473461140586497235425909576650860662959022543222114748294699445442170502373209477679042318420505734971663789142234672425055688314043830065352382757515714294586307548966891781018868420538027561919870826061037116430415545237196755669475533397568233748662198542785651120,
  10582138195847200669561058678218398992765297566760926731262790545846442398252216111115309185915415618664672448908982954171013775219241989349343714296074489307738801975450957068497875666537855813274146387223692861700110090030540479234416960504051213652893062101582032483611637665871342633084753814994384297170014999892353443166961773998313805500593189788561605789473874430712629292449650959483336971100807775209145873685308130569501682424595039889039003203528863387632458751507456487095281144018492011613499466610167946142684864223821697139916522361274865475675276361318139035523858606246038413887773363360877286408774691870319713704326541534373017373669112547143313105180791625592397226747360207137213178537951091887545006603809303580359720040931306060687069133113368374700529215238417393425927896356430647001215171416909492479861916364210165948461359620528447868818632700506409759066533800542290346718848391330106640051755267400811434170560807321525375983822453776082266924048662395035414645484796678463519486926656434935719852101997195228114634393396799457598117211941714157060662319623200401338667028839128249015579004612861610912613661263782929222170143723439548488382487509823025770572500365048806187584098160979667444812429717534336573024425744547109333724169]

theorem ssssHigh3_ok : ssssPlate.highOk (49367764073 / 200000000) 4357049400000000 ⟨37180115858359600, 15939377645640400, 37052486930359600, 95721696000000, 95721696000000, 65262831458361600, -1075488934168031031, 0, 0⟩ 382 42 966817619349161616583746931602609201146693847336226397458524832970941544706907650092025882453061873861277580 ssssVec3 = true := by
  decide +kernel

def ssssLow4 : Cert := ⟨340, 274, 49, 2 ^ 226, 2006238554195003311952089596410121030689884954865679846159602665405399000000000000000, 1156869860167412860953369952260532685475727845472310350378390156520828000, [
  (0, 55712001071373587097800239453931809142437525343737749413990169890629181123406188600992178049123570644239538217724565601552453985863492594834496368797427069693932078742184026474222754002136185321869348526594500704755779429825170834482272693148518634896763899102393832507462866514827004912012888678316036108896976811834100570877682153270790004876264689389096664274116179928331171760007089432977198834331331314905062793769867514064075901385883928068785267499943389421033264565879570198898084615844985342070438199545334395944134779002165690539296973754890612102186778223135449945296462332126177246678032616040614955689585054589041785226493025197969388633783810389972717024112615890351450177163561781319214402691469108957680667218579878025651057989568049833603188537835477638420006592429373442675889261015301932093814410702516232248517447025206651507486134596060659799014188401586868976969235408349348282419597809611837463189584913956193453138652982185145965875865187200507398177024020378750322485638824952799200126608493786756594208357571363554587548473878297122614102770283191082381568240452072106799145960295378884325361203741573528640234680972460360475833089361420896008976704777968824455054412910383165221493818789753066002668857361485810911979674289845965400388459851061387693511785059896086317716612081941018404764600479047985765007046555847624362158280544718356119260776279322511525720130996798395837493228410130510574257835610682535559868834032353994983481634656808011784),
  (1, 98964394154812044990031364114576485800738176423089629242663528309303784467814006050432848738443318979556317558410629147299614896028614265188655936782472322279388495845880437819947785795296704659221262560884394129271021361915557807546193363042167638609541074247891644620818455842764394328563204933264735804627474647839677520764199345471834748629332716425956906529707029692637316167195147197640223191515692349241045536145281526727632066070945227783539320886995054011085123738432043454235627114056269984807451053383851338078398278388151758502680949119549882715348131749676651174366272603668203659600929285763925866773349633560653128303318057027819073771773711104060684083659698183307930311795685171441281223621950714407459802511516828511370259638301118870413631773764600861433185969449290922767287531336778483273261561250844035662285924772185866451790274741382746133645797675105294679701740248545688741663145291017495641914209665166288565015411222195378114692313076604828555562088185457864257276606870484141834266023815363412861750425562440275133101054933741268450812856915704814994197342246319086037952871226485299865155438158995512198105827958512579253701523553850064935282162748833384956901702988947708596854420885365942771577681638105500298169008949473230401185042405226525548829426135102036979969984610688378712754008240204200325681788985480338250311131227647155531817643928166873578673838098506106672695735496145646064807406653578398234497811844948558174441),
  (2, 175796078408239169318435212571346754179675496784949223313759149360869700996020722019392720685971069599282237561693970329079120018320677500023775286860156367473375592992802634623227710890361637725501528097111755411492601081587348284764737338668429123809595902554762807179001791903867242945931785798479183291572278796396730638237429800482690292761741567798381373172699511582132828300660188190213328612613326656024458408765827700671507269358140502755323238486680276685939147123234574727434704290724829561138612622365212929942113692630633922372653250778232899776212834020957970955521746126615717349241282303840073401944394898901028748036131791105410140242786724013720064823210863644400131303970070362722955947256947958898194112623883802693961711134353075556020930113934349622724806041832785573948290741128008266070827913840012986661057635492338881669010188459541506675468463159459496732690249197687005661469256504088154494569074426754104100886331803409232588919536287623102571984720647027588220562233459300241487263593929765376869428167669384629301441119751494975278108104843382078373731095659114955397978801772032789033446211900701006933651946385541679533282136739087535308639252368518103018678964461555774072027303581547714382806299192712814200103110431677997734563904008639776656258401610418871168062654060146060941663845954662507675633357508060357601433686809498663622800212938737780760417558089674598893272580658033196567586143379486384961304634),
  (3, 312276566222461610337716188158503845334134710939169878809128460517148092163313531922288553920138299221197604015086472934437042608640247196824028896623446760595192461456559964843108468375234931651631422700903302690420517797860136782602478805837553904579583558348978563875889907564444187634193190680179593933915276643242836173584686230065948692278412900470174202838578219037295785042934567331219746214527880291053296889185466402040550069786312797668735620020628633597836370075465910844626444408596812652772853077693894018001630864140308567086425259984050683854767045690455937905735262784953286220285503614496644477474445837280783168901475387283205878694158876151392961322750265397425904512458575898825791394383945219686187350666935240514008614074840871683109088611430283097785305676368549531764785068618517752911243695031744558309110247331269923959007173157748999835217002003347372844029003216991378175395513234722379799093441334480245760238956193581219879436396969178504181835740836104247383737312604313629723569171309677498822440261781654436173314048447417647390695036342569618885690119377531426720719461938865943404241161729823064048492964277057571996233644995855389401935395893473839688143936611051927886204603281796319929248085800295093419172474534730515783533987999702143730922932602940262848495548905955982663767818508263316855633506444950127855889695424263436998231244638417335351564274843290930483680290735558418991896897679),
  (4, 554714614194144246897957055225750798071336747630344802239269740688662832423377549601771917690849998143190456105202015404571306079409228331570262701137117411343940178662200508616024594162017502072440643611676869113193551070568519857986612522143731612393509638942694792763291654584536212405457181736511078702156549328756822164933195345851636439285347145732488770104007614257678817979943543434286404829246437888332774025306891573101186208962797977914611593574818506003269884224815367769719826213186230582452648923649319881625712332677183032990391908618837224376347108823674836838526188714957153808326065445114607092783771810166086881957078374844193219450509586076536419056860181262177759863236489344919986411471924810389756732735608126156197235836272098487630543469365813386041053483284740769287770515410026615036492078759548782865659018591690633220870635462641588140935473397782243675964585791085188569872030286524758094271990068333224060146063990842232194452067781134023636080475709212363359320426403289220620360848102135030434561296118590241409253510426175283586256953569049223820592035135787159127778520982140457082457677852265428735528891514132971570949702422746796288183912120297894138882244078497928389530374996245478312962467853731294012940841563254171106286359846136995722191188303899287274048291601287706563336940141552962696292021591358794210021624938885908504572990953499227466259829936118593934856077316584),
  (5, 985371098838734824324275379097024427410717400871121707335959528448989811484332927830154538025839624475413229975557435075344049232486800961882752076952112149098484598563143475133795093513163621522175891425866294185542700432526578858339656579855438662699124450579634899817364663437671092969743413575212773144712613340464901319775069779353811427001450322236775592643466397227135806043678139972756909026935535912061428393950143316722764331468442554559796700277459406979685545833427672305859803230860954199322793735036552173396169275703502461030913669448124869068517760562383702398597794067764951615863290086657139212947378566563053555718755866953292470911769460992337830191520136887419597272602972198156869897929634591513474838980747175639950557715179504206205962898990111058318812517025942222733575336975610244922595872426389496525456334952918884976197113604750485070533564425753414253948620612658601889227486359161588523463665033589581660031065351239458001646199929962233315140666327105760940452514066974909819683752543877219458159601560135539449475058776276505846219746901942201788498121088741183592325672132962314129932095879070914941179565298217947464648898820422045083539472571031773935186392339049432375130023001029717052096726078129211306657316918851392308728198061985443057466427984949826405020636396213566849668539905780965716115661121969196183221982404453126869008507689647684466921715968956022),
  (6, 1750370690769383776470569079679057804034680270004073141078074812269762930627253054302103542564437893968707617678834947853694234908181114274309624061835848315678294186880054200381188932239101960118263759370011372210398561062364154509954701741568664953620109677114107428155610369696157942877217592896030697664942317852316956749369676668814501306169891604362963549734070637316361698368350882387997250834729502334598059025218234377288807776363310228678504168382336507157313721003813357805364141079609018904218673161114417192431750217579275125113660706372446275874574062775851870424941239966355718028330893049023647154731763494992211307464489919114645303534064413165802390837183548511565556709961456774660660469218812961099534543298090787717718840554389383231940032632998305181753858497691721266677795464031594919622173266448751584603889996987387743923875914301446859084332486260377964006192677796664022756849724711679487002558985660000125470306984141130826017258137511355079280213763060865396177865155880985860026688507395860805388151794692481896137966177252048531685992141747271170358333197649446788231071628019186191639003832307712888144100382355586328561182349881185537177440581876738649670348705688006333841165277304690655048881666018566261403310632005278357109817249840295100252683375814503117614209226960838546772864522824308200705293481071339514165448997688610453006275837406681347025),
  (7, 3109282948033946771880069710716440874411414862378871498735332135149891491868925090573632370411311594677288755202974249679837082143109227773232505546456779831777180529550866009699597643982748038026216864585389190422677596548716285452455380184036667079805368561235822645707275841108127856443551688080727497115390631612683038808276429836201390038481835247962238572352222011857620024803904474623582559436518490974203820627137286787501125121923901204368154451019144678962911371665884208680047038097537134324081356438066712618130528471985732855814319010907965146895447370916452059159341275999390096798127946948436827237695547976133112760605626687518346400649612311516456690143227885603547879003376993019869693171357943418642273239589993931312465323741408418841213960394639328325358274604266801172856537429645897309020890332728041544145008722684840962725422026762613075763023537368913916294470074541438726958295967051550637555107723087806145839033052988097806110773779540890847210998436868073787177001109473188322670277561434048859668461073208041425868520683915117153799490895476420808833158512916649303683859242651662307395766243120851434655207673484231512993481958593963801463812905329826320381647529309731351244020790383072686195973957443095019373481587268305123869959052898156825716357676772649652854018213943817478317035372434462147080618113577055340050718988504249777890508),
  (8, 5523196030370694519490602751129872987563945703596402534320354777632016012872897283475197669750907852238375938260671804813090839499527902672317003099018414957816445558452573536463261478029026278234868864538496552973746278314560990178026820740087478762775067869262239445858193251515570282095099238200098014614896090908487786645945358791751389480851429850718300340762468709501849690799430923118068097916393283497020084801038782433715559643321757650176491787932230606362801268754135278784028911576869208031706909882591175222636548630199871965911167363133257476095982330847705186364071311300608094509891628403981873770939950729834360412161635211611602662645574752398966972736926428326106021721651138766855636984901046570289421535609321089777820905667525915939068818654469615025391506037466588547188846515587638899492972441285618973333484865809038737732906125322908718246983934022613651089262236308259752707705181322872138470059559815754427944732439468067222268709386559161337474062799051457026811756163002223527090049238335675139386083681969327038494616735953028351881448276395653233145381939495451574342204333126983674316330865222494353678669052359947665079190051602439624149284354129947343627830680388451787277162710427678548800489046368261483752182246204924884987131097452764257561133466680744993413462890057012416712937706988508664773721379855374558921214925),
  (9, 9811167043897296692539460762691790640779646611376622918025978538015438618343653736203067506992507909153432172998826154796182908493193116690237846414783590063522404679042582225864225616259304004999786958731027964207225066026926120997140936694900074407479116788469339092772675628703328678054773080737681056983792548244936656544405790003924819235042776862348126464529632893137107067806846009067079946033129355336893206750466955383537797986146532624112709447996940855511040971779717823611388504332477307485766465009620082911458919196585332214922458179423255312884927775234207946895102150988153242624406562244757635767235470443378463067427075891679775688816903318857876504155470992473053147228716363079585641502399736036501945120258866994889217651582258000575310722853928320645859264762845927976202403978240105315975688655175394861285744688423086038446812116025870554569645377958996713002828138705068209645978096589235403900104056564809092370372089543283013708149103693563619415447512693181785022948697676251357129067419082332789701297113803610203307208659476809013809651996827091071034075273621372621649951883846876493473744830350846972398913334565450263320149036597607965438870116885750316936270914740366092272309913707758820192368253144034080245967827153740935006071902581535795552062734142983001263983936426942319715860506527378473716173421130),
  (10, 17428133683086642977392651307546058311141541083620695018315537649703407415978626409797735050960237192516319546397983555002482941325929320549242715698816816189228879857978642109579060499185607050567080593225373826236638789991133342049570224283670495282600356495948984600168472529739475978560732200603462038244443979518676711452780293285526735195147531404427228292399898530708640488564100826366801123613777348628744015734637834783023375473740319732251099898709498352977749475844714183081698321316026126997982084677531359735346441934193581785304753356496191298192714758117302708358969023225991670996532026259587342299670025066253260498836349274404198419561802365549054927141937016713643291806231840233288573017673949516242345851045642666536200501877503467272114876728155595000645352122689795375673120679752126114954147436443981399504463806516600157676473989095434901468238543937874997195398110189421979484185525638277864876690910975885853165681638298866055604315405236600395123205895735952268952442863862809331046763503897143749965948814354834361440456486556519644904143857182228180635510099667071489087213816708575883508086952753069855916220133673660991731407681285200549653669426274279352759219377295465023624618286616051487597231850423374861210231233557449424396592251866148317597507988562344590161582784230819053156958658859013),
  (11, 30958584461624645226564671466621081425864986544123631372114491369327115211036734059456892321783585287852330400937919090569173425484326471109332412808265273735049721172670403858637039069285459989173481589591510435207634473236750859936402452149862224673034600414758401307424383241840759365440021964835998173998326504384604534077541989709841048755877394790636959596780353773976467484600339381275863164454151281442163065036079225703699019418883763173031452572587193842822088400075961516492716106761951795244283089622160564976656248445021552395416429928408601596952506415997452355519891864724746327899562524101669317599515759243425885915578349238587080792438499615345017001794583089836121735782279394367773949608120313644126991366113917085819620521420483266407961360912521261318838356028927666561961138570916842715393317337064068206482494770511350947064090616880973070937274207568908301732506305346133625720395647549330048559212911677597136511266775067603451834258946231025112066641127546220941673218984687555096708963648865455697642744203649429635936381632256132540542854518929127186840145762761498423242495251712127711261663340889313556104277809397986912172644570939457440664395704187373511718721974028493955928390720786184595646782539284223287773576467724243917342662354900917452527362942090208145214256924159986543),
  (12, 54993493247684579718707365118305326195798166244553465952807789797403004732209310692918407678942141492066204515430101799287503817912116168212702543248295357403562871145515947022933054372817785011162815930093113048797490484075466023543626935583801186307787765789722829299908806272181422915250608546334657510386545382936670904485362401774954792513780884934872366119018310936397982680995400982983606906956507760463152458819373679706849175575362367231218156957461727171544334149511925018805304574441070300728873776358310318048101949336159376443627793085935179727933595978493135377804511900105858681195800480370918707895884398417481677120105563325833538403604145287308554160528038362915950957401169177147655883778185471453629319590290894451689660522980856270823851652672533887607689759478617741491529323727834634503958339278462687696511187301576903039417227909329810403955337272982704512502927965194042087615221592971767059923366564516172435445201374996753420826251273052294520117141383234553511653421312987034961366384554083445094870481697590220486247013082420610056902321958777668816088688224807336970679047600486213381744056984228365818513024178945901364847666482948194050122034567574088128026889821849770401930320698395023278554993872907822340722621616870842612112669764462988277943812272602149354576),
  (13, 97688067852366173896421960206708948712143129339888766869814070750939897156061389253371607679066901292924209033823915797398776386479145086690112352797369985202860338559423063762345876270954240915021040347870043047491869484795220203664920392359401453377104976996543605970195816109941956243721334786220161582452288100090064704668022323103892847910173415878062632960371059374944617176175536235746435928081489369633394714799438913072567521065167779079923525474762831481150060225189004223271349860788309525858994912442912233138675764738643385702178062761318103702716065563060132727316725144156666050233153290578750820429690062082214794044975604443086372458913256475812108274183171574915107426254946866152598706993873826569638451604453564675469886619502169035309741850710487898686305285324256871695679516479014342084626548123400183666081673860656434056287295823693329642966460480025633893034770109520807404999317378606725417494570804053092600569861873602508926136344765950323120350847071534445106195615755119064659270642680395713022208347994143151608371460272940748045215333080416836536781515973059289283764674045899902244368893589666843877488193410008896676967457586816269249642912362745822252056386057559623102838874084282691904916809029984050395924802965141452073605652540832356105594091),
  (14, 173528867457560931321176508886220247002858847475515717666918848092390315195761871686877981959410345142455337176082176748896078063432581199648410208780247238400311271818906484216677482090349509790183782815184564826317993591521218863204946665310286075093213149739629159648826138089616060349939526879214640638252431452120506485873086528812507819192192595291257140957506960695354610472416754784949444321260888648004376552102694890062314343264030846283417412401236442149108461926799327036815155530274004572404911698379529609096043787565811908574784884545964882307649119159141412687707473037339266588404669739232483695437193466393651112912710746986633413564846718742750861422284729409392238155807362293619178655691841820709019427298155934561581353896777520154463446816880581946247435071686328670451267991453523220309804183374448144371560531929180161493048988029030622576434394165366733689213795724324381234825665847809403514087007138431164951266964559673483026696308624793082662373202726036254832537973565800838313004456419389124216431532440695459736005818719878830383211231005874410260210057528482210928012915619344691071723303185850586427176879181745742294072999665636886698545328863067960798356827546843298467849382642105313955276235199909713590666407159743095972667572385),
  (15, 308249190541786561098304545951092987342614412197155225328172759011739614571196411060846674794103283723560259131219358250647555990649110752524379118505374205773824540900361186957321496365657791417902436617088426315465225995671634880154408111226308779484456336369589482340181021268818836638566937116267440185675328205302606943583123827741749844217321915866775429835349126828623474368553619044009902571967253137714531453427975049403026713723639634239810125246900462898826326771488912352197845436011097942275576132012319509956847509477104588980161290717967673726893792068733998517824174280239056850708588690766325606162424169594047610621013526431964577522081466906636615992778620427221921209660894079994129418347363092399738932182960480087212965704592975710866629848072260266158957445369330014796791345825524270452144622672468509861702542787243995660368022341478735888513105363627012197154529468606457995040708141024836372620260943965365734862642348658828423372221956580763574129466727840125477258356712242471178629971813561901950346032164519170673525070133901230414526594185304374548889038136580523480600497075489505212998792545813704069046835087303370247630296494771815029232955808891006094629600132776148695821905177352766061728052919691859351592048666099),
  (16, 547560557858343764743115332571900852630456653825179749049860818487749709663351089960537368362186220495532494840510463231150581982370552287079328089246982091478159559636789146324173046768230975079198939359497779212276217805463667656033794538959694533281451173159847126448465604440752511777933392514865450485537792744923888931701241647358143624705856102474937882356125589353157375892260706999821320315282450088989288801094375912031878968139839880768139879015631375128571039461244907346416101903061995122903918939533507613543082472818781643540617805742369172527165404208441432396142847367654005170579465265181973514734658806027879955078593752921157354329587108708245206125563314739266758828976495024560736868892159291975800674573660044342664658474514072594829384820878676009545115564848852044013864258430330685232174372221598532129305839377633109709709546480599524310217171548265192599658390548439961471690874505046474957163763373913175925569410227838828631389813113913869068408561287851092100430303761669517059051411241766632953543157626005339329281409399560446921529145884133388297156310119239817749686163179836010109145664634602614911875219482403567214184128955056584847647820554846379577223537066742397948826447920715125468530483612614087),
  (17, 972662941937461318285912540037879511938498811996567861150681147015059754601447417610020079947776262776332623552926615662379551980468628668444250659167875261430624084311892847434195689950115037372242962129429726946952256961512617116825008286700082141160898496539701939550137791502604684561807845768870811853211005430862682171402467872069585608262091313084703859442066353388490391414608316381069569895781090236888571811161837842470844084429707965123715215814286483006723231015041452840660997752433490012399714959073845083320738365976310115280260467748267957525695891911017305813497561240953701576837155170106883089923363102704453579896108353525792672779104422854901958796515236108619979297884331378845081146838221361287830961678901644338400487057713088530403106149594641209529879686863887085960730778192089393426135435363660109981071515350974169356538970325291038158514755871069024636365086112152899770165561537550536504372369830998412780912524119861897545723089782148388102781721786037824458835317011687570167571178645801894101208405850224984348857196319815168706413355863687858108698931089309783810743311561404733065859483360700340750771108947267757391313940873683865570920842769293194696255912792239564676912504099837916427),
  (18, 1727796469341808809351245838029031875824886376029462622960944135462137011621676922666301895335023606439403457486621253840965128160839169721256155501879930830753477553926601759305954211246539342665330193481549820822762586198118489224904489062011600139635056456592642971794033239467764382069605351402575717924492033502480810220764625350520103474177290738675855273364782160084016598227539242538028348650802143596392161878990481816533520888381033382108369691382785241219627983589650924013619133229521397503779269186470849888763136052315735784841261611302455154898546134340232487349916781436712826388455330106570209026079825847627482553016887759413064437220709725243018532454818996523474662934587411072797151644046573756604041039600846213231175797723156355736146728095905354308754254764723858350123202524714155074934963861372618069086123519089549395721540748276861426233324505679329234585590649603323280594397759379958116144644196537385627665944527480660952547884086546063395181667946367882863635011102216738490983851852991093157981043342665762262259597518547665147665129069296653976852163075384513776411335340128815421443410817786135423432425891791143301463732166388058178688639873159552728438112504968941427754712),
  (19, 3069183075406927246844272328781201288139055693610625746161825507597227267633167347740639696918229081325160187285872611772755535785698403259845935414461194252716427529068274919132263545330669767655090208445025710134717489934082206673112628535224908950247611896428517769775399779149108333594510581746419087649461584715663226387796785024608321554624362333540124822792378069416194924726686700052480631545626003033659515616967511663189114432366056599770790046503935229238418426949218932611111787875231502650280209726953346296618696945066187891772049824410623501160730579590841154904232989373962232442235556425290910473140522812239373452581915610689227808136136265530938715319089736307740865881188969259364299671292638107870455068534735583168828111501558682036197317801650736159266431514692305484627280346957713007939896682433200051500445054829409794603047808046119724548816397631788677553971255877121618806470068187935838269627658723488102289933354360614791221584834615154570237084617628320799788257291915265692621451452647053336362975453740590371897464116498551376657931200392810343311790296744955731279100662238573707640271750726746340378151110912965860105858157543356617531890402767706640965819440),
  (20, 5451964348354141950697975203956889081886643911106198155596128229851746346449643320454181324461453513659932186172910210201782619453998812683917950409427203251489588725328680009406556094627041164297934924639105192173071619481403469651478984247603745032582765555721221672708170448491456166144938294232858805967421319714201688266021407426037073880157726022229292779502317214820723969141493083521379322364590768042936970518397760001014669204912353140632715873876184043136192030747882652560361200202081073188964302364788100558475920985868938317388614035021627806899582930355139132838798187542241180244866881498823998735156874875407046217257657983027900818773501836071843341984871862307471004961093243457234889276932290217650641417125716003504956030766372856028878363038058650624158702327052952685858796519263224188091555910704326493213912857390696668753521316682684919816946019876327720961945861231045128044948439620428050529332807962352965241580202218185841591587577418786249729367862810555407646536428804289755853052540265669764385908350026161219077675814331066053208670073193351082214083291566504644945784905506749223443073402732639078903744858344973316103666804248949832915844691917),
  (21, 9684634156399415471997726567096634048100614847967316015378016245883537830470274537466640439414733445411157742595955660135811180966223702795998683358578121284448543715539252228027446518255536901166591287885552694165338723531001256212898419641821459555902594022606412316827056428033124421644534470995305874703524632859792612069580432301900096350686876072798577813309784308293697659411006932952650812612455711099124017186802978158246385987651583307328565196899144355735948272703309202739927712173480492752462052280147851478708615841830721934479152097597147561550724076185948180223018975810854706364772564836177937028854827659221679474876136542639183128390118051029754078607528034360885448442963151420794345479035506251428400334916727511424954076669690858279113253908779830078215498838373938323105818241284605922770591461552493036460180060268921564560671793509218683703208047928625748856300210515152211205566241614177259081421551599624883880612646796354788122217521557419805930901847344462345257975907520572397414390617544513681440385980206374686922807138487697127210243256227217968707146720027610579538512969938522745826043752338568826594676007158931737922201243187795),
  (22, 17203366121269538807060545977898614107198172662774912840066376245368537840736239967727715308788352008144973017323445225676257756060147864733471533436446240610247278767127827614835819940162096877559854379496060105826697589445033225876217872894661098581837085759821400699657957984390657915058632704185798257322038582540875607211286954618344361933710043441622229714716192849704084644087096472662779222789249289850016240886219743398529244803736674845992320513992200774961769222412866424294037084667933395966955299103604252795056327121999748320000566483886412923428986740650096751476382250719147030857536713324019163797203353130924772188245332017256787810898370203831631282221108480072935413468173903982566548508534156712712616031778620547469596926405428863364553747134124786045719115398572272161669549136823453645093683971637672727435663111050967359658205285425865463822012913451018772532565342799730406266363970432074795744355422544727715460250494015929918599249951553651061608051841295379691557079181055560245265052528654822042038035954459626591752512447117540235740065701034653020047304005404071490800936828563222311803458450942905307887138427675816443),
  (23, 30559317070096244482932874795850059025138484615175002306624806498531567936288146109701569031631876941336742854590658487717781792945396966342138287155218506368617255791765344222704251540051053236339124652631614186386843878340407186880595212531716675305339609066889594800219755422523458072613487971066324743259244415866453829936828346315317489634349696868929987841787532365489941800815166119438855373008898407431915932031528932211673790234649051739526680862927117635665384305890807658011282242581030666967825894726606316703914709002590577243481356997933566386699142906847440369178129395553526938109915963475323087605243867136613292591587966629574547223247023673330786273230732877062692210404802336832148732705530808249291232729008286775122529032543423056087856105347379937194941877159950572262107056964055699619093913322724971137690863783845005321191532173794697671945962591795438816632756232534986443669065275076559749519062017451975607647387094062395409993906742633559487733736984454845816012924831092015811338644471184585448153156177791890823294899435726022645150824965144617399343531976970154821826688492900609697036282577012114394131),
  (24, 54284251884856065743593019196363076659660235525794728384443417210836458345643722111624071002667823172666201750141064603316952950135844460133550282029388997336888919995061461459351692997369790601446766641139568796412556649604724136131129248805401332340929833077532922247997855113748306176435833975655919175951565190079781488064597991838408162417461100808117087219128338613614225191223347616592567158190206565587340319271416228261020852684567612487941370968907350239685381546726497286713329108593959785156618854135518301462843175957261616093252274334303663958396119339404912195471260185157757275494128700916899882909100536130034414835630622793021939372737279478408352673527466065900390896445433898100091474893591067777244046578515945629390895371413004518782255254496104366101860020464486249725059877516806152219048764345947129045410567475848806458288464110185697079422813676024216656967215616352022437245435060026774558951548763618607629826457994571441748879231624240066515413971688652707736734313868507529708325885628956208373248919275665280855855126301177086400420051696775496873976375468364375732648392677669074654396646),
  (25, 96428202107408166790876443819919672408769081051991204819028035161270228724187689851081685714767677052745504896982506751958687943795219322638582212711022984469742893306582207481328283040201563123750108923162709515348926503044048428287896982972027985184509287220210583869518591086528172720464779176746411553220295042257935373455790416046356901030357710489548135651180333406199612624452821838967988912778697757168094242878706514462150088550165577831373433161056922702101862125547281265906774737401207881286217478836321096301263258211278990921756866562421262551838222093226555782107541989194758321824520376849713238592741414730356091404632918719539077425748813314448059966569211431913658767850892740680090535688342459046066853643790285775066971812503408210072749737004583826650726590905941697346532993039748052247407350183021287643199094978288140140081967604133940038601556785220001702385212505114880933378180203337844099534682462642945275347880382806821649861749799009352548226724197228020573794504737167937065108201210961224122535867544870222594973167916639828537769058699462852361902063814011510469644795831),
  (26, 171290896324564750892472440829883004397419231309471475232559567924783987041979392841198758780410318664210218743221890413227843581223965411518015718920150912193608536929931645147052159761220145273566252894967517794536867014104598301616905186857561782522170124363518400295692768076114067165566753713124841561174409688875540701057764575575691906195718748743722570792058979767635935127053096573423387503546637352647373306588744818769294797504544122821316048768933789054338462314696360705933535999891863352720937018911078391980641094562374762908593130844033400304024881858740874927306354128122302938944426309582862592468201212442171023690924317397007969159337942032100802315877076239147090481586102248397043376524782008736204510224016638150061645875128188396583899296461103829640980200367760452738004127962468422691568414440676643387155229326427333890253271351415526237831946682515519840042471063319341120523673125931554180140266670712593490490475412638474723948585544026001444969897841180464643577821172189187613907922111315392715488723772707743525699550970105189608542800166597791898549804943052),
  (27, 304273755213138738797628261340631195738279565569515200985239320767204134605269465904389816095825523082290866470398646292809048060434893984875609510434010918059239497093428750555143618731411961594393114198370501339830643778913807493294814130328107649342395789771356406666410550695164952238654788056946656665869138090264205987432920798844719092653440460773563807784776987733806184400187922592580326234809281644110317151691543243573654356932370843303798780663001733641468198017226702710887638416196143863061012088620243852936023189344494260262883668832983855890611352358533876195764760874927199856605422440677854210979419848675996205579485309407397121966556144926026024433446205975440549971462886269429995271507314744666973661765888185697674321916270107552994266099057723057517793200094202217621673431406388418153504122221829083743153784035632282970550732584239945576998824379632035443712154594741751288683784757694003838630156869122237019347115019751143499363846555102187401198939114010443248821260596692152567063759545492331387364068768515575029984653407231060641733769148062905),
  (28, 540498766122856613232322795675754881973559601195083247989267481124463050574916621275703221634750697058223551143698158017873886695637902841106291979194693421024631098528238543719104086461576479827117848080824240684674920797199690816709669451799454537133086013405709438645296969966389502833982538157292457946510077382070351364681096800071618891831965758839284803189523833099517880121150396977015601587942446712486169569959963308853811300319150745706566463435845255688113179413346417214238252963536757409595315014844946310270754903583986315616928714679156188579807009657569592182937694569576104902680733074419195048892016198518315582764959638786019465382420982508398408514915426521435687614994987746589738493366425203989782676606628508928211674318499346001689849969877800671562005466043277315223909034650324448754773710723266814684068535955356326007246852901124925793080482714313135360765579410276077679275480436707187113817292794976920276615983644504414195480919451099489714537754394517753619250523823176499923632981046609439483525994995193790064794069265986284655),
  (29, 960118679889732741430071164635782000782099745341972237592013702778991774237761412596269932227676806850878576873245914919045764897364683430244335237159107691207706403469114944508302469120722346686967852777662522232549233564225189971100995687832400586486731024886063962251416189148812161029459369893078372166674056980804926314374901526748919198035600860500550779383949148659354694687985747528618256794305584596370171531511414331389406521324394346346823879549241824500241998251122389443308926505569570955599551494532294893980180565925031814930746168499055381516939782739445099209094559137905820541284123195597469818285627071464396297240990548852392849500525458488414168134321008835223380011683327814678662120189793906980003245018304021901822012252072525769262420636397103105452896510164477053711205874741520368083132195393647901523314852420196203046170657037987114655330266601710865267505767786472374537501376860915763530583915457690642510632019796766669283958038804340320985778391883180144038236474725161490332297012424716602537449048532872493310774),
  (30, 1705513383657902870473594907367140804062961391428430930317896877637520215283370167480425925647393276406054409810264467989406717870311385701707847024129356066749900788308757606412878283261422610176843661647212437339991670730349012028413647920005472991438498932040626668156855133626970508410896843504625251450532862265922822841342480821922451216959317307635669539193881922102127442125074732180142855134884011664883381638553428749020615330064510649245354334856869460814891872603077427311307550021716660227151561703532389501299636843700283697300898117163310193052497767493888478566141119206203921263050646154587476365797025709756095522989297801762420971353987822882027043931358434868632388516682868695841934760293741470548924984946435702070603765666547710035844474903623229970323041690736039436136616461535543248257395427574436896626033543208272836691477532980447026699838343386754871935991606815179701943264852166301619140408507036709390213976545366454454387311340225246881051246512124295696490741215333586027284849681749992918625931914),
  (31, 3029600363747043488010972438088382968134214967468480382330796679682666633643066170729645024695272480459274560984957111314970522739561361926822159097011739818125150902569385963958834662607616559748993321374435242300709333411031686484891077648363141410127306743127454334277364912835095605102572952518816891343762850709731749567581458241055528026121508967897561208473345669456650354335554030939015987054433244269523858202399084649313659910865822023843772293218762307299843249375450982578231041948722131928971598044844641254592888020981109561067787365798425399721229717639885141653259977504242576701864760734164627996869750246655064888258358790975072416604880367974265658976358878922505811487697660242254561340109271983439972163655920583531599002768180352675333965848965505164876122416697305380365618464629744439776919729706886315637139473748581596617037347927006222338775868509691887759474843854915900487664137650334504072042841047047776779353159131367076151616036227742605989451727261335480353541478102999805451519228402),
  (32, 5381651326796212469109635334052511584679277851901096503578197894361953182029874041892456107120746504477009775501835299004902855256663615848289949186310780640539540466510962170335338936616580944538982903820691445683624554479486200196677572962968647868738430999776600451637911170739294955946106653841621113996926346355237302246480529358256408307210766828182929819953101407271218485081608034482531007936929884498708188837562630757610816310222251140397747690291668770969990480537618661306320158065020507060321778779383778434805832636129121666597129815002108474793085900837833106488218543033071061429305754850043006510825155870404717170913958700720399656417570211558689194404083629685472892658750871675427946119550584916609103244837022369002687495485812387811055300760873559932199602943923966673487103225411494337937917969002316586645733246410110218700050429280706504442271531737852361410370018418520984042082179841015965189953681889736499066965122804030175194228419757182479982335106189598588219669043054213),
  (33, 9559733141638118734549724230270884140857510337589192162068976547069158289455021264202041180096756417770692544257218421492477892392660721153920062451602650813523141245634281510604376717653664413390901328870101870280062006160134768280674676727638579473664592727060295720098600003794946165828264550840829563558585142736920682600808953275741704488833652127629029654335517611579906079824961612506422521893072971259937701281241529668919618004885985727552922792425935299608753631397991443480569598993256566973013152645970783890379225656575879064056576215247532578427230717468468208652746171394832937140273552639510048464516061310793213278775862307993335114952195168917499589430014685487977844590733167083137240376271764239069155283966849390934273864503256287904090505163627457662636176763150783209779142289725496811772387546306174037838531243457920702315839204831884085353114762144303088921618308494355676790277989642376074795465590867603958678448240750451490672784365327948506658756683670598291),
  (34, 16981497348961277579143067263937257457745341295206323217948844977426269911716804773228262914836429978996260184951025164961066563608348224470793638855908623908119719655783851230161898032000128717762554592854797207921017424266659588228178247055303560582759619847831286282331239773263818476826798034620052850265188963782043571982526804760676651917684302690451038485589985933265167448546647612462227119877614077306989076586458296957976005768654745447635089851868882515680608232279435331030933396130983729278211973268276084033130930026422602177675037664946628321347486416729664491236226148174097371375310618987840340050572374518427445039795627841988919291924797292332065112967863256267125858760726712299258972025613248246383401339894018435220533308379586315260314624079133955338650201362578689801847426799435813648045969341453547228629573518991838649632816027520206336545577006482803325978099767776466516611441775932062078932030421751211888209940588829253417395659299538788611822),
  (35, 30165198959071298307679168542742423582801042763565090740449892853602881958154505453495442791095864592631870086654743448148539860774229575094300215615883524505277211377642778273638541789819848450045369612854953787907428361009576566753347382237468070784861306002359734286599986370408269705348008736239557657059972105651608971517170413316332374920685380813336924309076795701196184508967267790623106874203590066355687440118789120296989587667763049364899065305469006695141321081097076226595341592306980079716085603321413167862586702814095454558880111976992034251845219903869050790584454484640854999418938503889447205206937118483912815484054643275656024445077769697565520529608448723963313364149292156278317700187201789572289016067353135554954512312894504598381903217723699237325973944569173385694804580892368915263467324492861185439456648404599345245301275488752028299857666700456313965399945037537465071120424189062967473083210785720805723330050532507104374822328),
  (36, 53584157482839222514909694166559563243678528109491336052381448273134176755897775972715599954604138704513334353116403404864206759880421233588418188606416296936592486850980538525822382264708648859421241138284186092507829600363109235912085649224824087594226934153171568179489970519104214181527617072984492715558306171496691262423605739470582070948513162598021596470324580977756371288286051019464030925821678261290294016743184594911592823364019651289267060528307379307605058585621114034873216237787612727658461961445657796711709347399163266748257989619812475205605022463090779823859653234645528502572744983304958546968359017026434411500623103457788760803143187081642648664878937724929874859800628731933128282628112100967521933278247995940572085373817851104062262534704051218554107985646287388959995400185836013087175454214778083196189579998840191874349798341842989983120526122540715063640417054646214672529193839170378500217428641067112552646268125),
  (37, 95184584628143929128708734569603013627258670047266179602412960119710475178314461969479079473153823998237363261542461848688158803516849230243874430427495904943120353138549716321125246122285119558297289017660301299325661350361500881484511602075534131832348072640597287429276473477346312774966300523168584867062375896676128049312035458952526559641294884004987391988179787421479593781429292108181720394870360478533946719093212770776145216789628932753301755245592890658464251281330029075809832940142973312962119915710861569715776031189336178411626065919212674075085110204222639747572162062641186457097894097752906368065531399821097926501447623223961663900143769228579836599641412274741671873802479509680817601940099598675085703546647042063592128346383455120421188021017776369611844970152166855694625773466290861892404320161827619163164210615828055548545835556687514697535291888663570182403777067653751200780058178890724698581748165763),
  (38, 169081787909671209717426874833406927074382214997528617210201649796791578471133822478937999631890944805877716167177071320965611065665765468879369315250233619353197451342611021976882883644207486926080565030142026944839651435884520489199469476986631370766278098247105006563078307713170533984224023859168693896400733041605905001677037523698856528466287774478774018627908934174645719979864126489678518103609008179348351893987195925640131194204880587000688946425367898450677817903636473669392513854770065644219115205479311076720049459406144631513162892645270779156783186558501745378965954262127954077515672641704127617266254324575604335570070500673497974369002755801213716982983728902533274085531160127209082517784547906975389263608962237614258364284121672560655869136894932742468578512626728223618484625186391366066752427155301081763127057990457104338664189092076835466721993408705750649614121915201094611580847169663434),
  (39, 300349590371367031802355418139084490068992431382259075869342377111993783702666697138189520499370783226578235749713607600955089101370660964230017756755384308794687943096766566229911669497744265922514561909529428264539666667055399988678290002177187817855026081541636635881615524909867134000232157261609469771655075823245432375547342294611995461871268298275803475609231281926334043252179119981137769197521593960161467792766800198002409435192880427633991484459792610821253421183006873778082127000567881044712174097638324993308988289917581255414687241852956453783890479434761510594200621342337270566692188202357392943397612895557111284456243203421836081226922764837818645240562593082240151415124657111555425729445482130174263103053419819302522665980399800274042092070306666517457773262041899957164754914567758200542106923420688251366822304025480764434183772347643859395582836295941559562918815013147795551),
  (40, 533528049039643361719096104084095644484453468762976464031714831277337715965989408683057634427686480676437139959438380809855260589645335081576625402715472431616800640658959410111378530345235421612560824936934667792550795183643379257233348900375971492880026003367855381400887968243701522974694784244059434380606349203426974022863367293686619012443669341563014779187116758145611309197051092640448716689589766273737453035116182553972964013656189692581609999573956822889682440260089356816150604200712874958950113368610175412044289331986753110510174719362075575784876153667431124588576560447872754120099644031980342864967578882455972206409164588874050464715508878025476564785046521344361764239872497267182306126736945825482340477387841103820907512637413240189824056383964100521433403740019170464387895680447422026507550439059116333383335026294832170881206674778943263439155833102262041357602),
  (41, 947736198982709273628662253142824405451527524981836026925136420183067156079344874002655213188893396474793673329470162571205207667101735174852393335489909909733172190008441701234990414291069410626113362173891021424342683097725989893209072980566128257679968211248478694567883169966644474631661800207432070670295760302876816155276798979670863241229609731297142629834281842312310234096948191676771238916902141675972990062788073139249746496907108615235033183402290329676040096999649258381778217803845414237894754366128060032358991264774283573275740551583867262064624625740986642237444289601585845988597645439181262121064415167313686687966524106849161535817279982736016636586930485061334626268825327421280280072493256919695369034060971055355463895717746594651336736527352656642936680383872580094000098145837004048648250485452772313438162546017406210590665631226516089888529597),
  (42, 1683517678988480891236109194344899978159040460173695491220085889877643593046226932139770935440549010702434197561904622901089623128810427358429246846954515461160471459198320798562382932157098263037961674139774923327845651878283523551219207787363202690967177843367642441154999316773147993515598310007241760757127325789057305440787205107022760044713496962516851984537145201456210838572283471587717953167038800959072225446486973047767872928584441246656381143006046654096327943743138671721391406426049080243397046039497676895033970696658455358142651118881848315115423165521447033623697005181780673525270291161213148012597365828054479877564679307275147266625074669354719806281129338776319851251551954446828910551276926575382575361614667867478823214735469670355587831626444186233145415722229761830650919045655365802013441719975927708334229760358040454715644275005),
  (43, 2990528143328564322036195137485655825305110434878879480753384015780674536065272364541752049320393962168438731006606913714759379676472329562968261922457278262705262845886168992345032977604444727330242021169828939303179098478443250243638101742879378045283802244112103349061188310021975240238461187549098949665497555653370121691931886198582679707619543017853459629598964523030275533941936580018961444341993801576594540212707118649925274402313853311187948035715327483706682636128816769418609075018982013696259179881509373414057148617663573121380210032499971553311093373484744738785807721737754599183735260861393464912659321262756583370211586754498589631739941638009551447241707364844967335145820896054548266123729029447247437521000819632710408491476843543709127256534565141315647183338568538088401537499094499010437482500272384936209660608753312),
  (44, 5312245120820986321331933625565894141132055831775133354264043753681536947501818734698758546235872198922774753165156047487111137936106194397692930946561902556431919236888569557504913186232735333872131787527772644649707829144247656020571568562088061621895010223572712510113916356656057268937179625368439530820324194412449608472788285345974967504004615159401118310050069264106612996366097556292796680748171232692865199932768947049994476345372375396862587268665677407488874612070814656093810920893281171255977301270860155785483859957835741338178625761226632685330986936307753254557820770435355550024199329383896280710925145050537022522497550530511311512017333951819306330088658972063680470254056002291025822232720325577527392577197972741055183997536519361373014899883496824360787567940664737930204709810878242486210569467095317506),
  (45, 9436442952940331950095259638643723399529811639794913674527903494824203668639984390767881925913899302814796930959616746900463621309273510713359021583550925272286695770232830492050878272258721994101038028579064738124659848032827831676764309603694720724629205290400437023698753113256805327345017655748963164730234900346808443755883636927279836024217368107525982829600794446823305536033872840929733507006486780588643714776631545581987724958525237430599137742981218108086207932734973207662087591662758035874530855326079348099376277965913708948533210480478223271980077305365357723193457677252063383185915347210367021883100204102529640434190454644649496892583534441629458809238962312417757221074747581402546045818543066137916892803458544591715380007842159996142593511408494658998057263488503340969558666367148950726771),
  (46, 16762489979065854495301940898110293333635647718158295256721823182754045354730317219839315156948902788894603636799965549872223941134549702236258537948807089838592877636721786324598727537374250746920358886277688593240847526199313670185037769470174954958853962699035473354009170635795884471804468743419707076176498190054056201792842133649796285213356450630858371268583218036175284499344558512115268455481967170224726908011552112493216608553811815884380450502200547059488385176433938237115944868580330921244285724494288078166111835445643747025054929004260242991171035811057742860278078569498674762691858449548117044341459327242814492500499756505270573531655672368414576435815892646620983839685572249804921503028518627350773528136572917658651417223107666123627466396571025119001537900357380325018884625),
  (47, 29776163719691791867386749178532833563856113852534421132927501394916540033430636306375581164069228715046286210367779540994537485977044463034615127798967875462331944727701344422000180008665849919585458918201663919553718294653685557110481573995614684721654072931949139399135910111270409764775292602961289921317723236074847394568782921268912340182554635414788894603208266795479188281046668933640467753067625160996534859370618457657217172553801158928734307125105617776617552944762003550130720253047241619547987507201406937817330681445531824779201334053363234480777501372941038461082804205995487068943692063600525621599626093837676425435603224741282039336753322151904239516895511527612350417107008763557707735171345282494276133165317039617649002814680627986406002210988595625035518499410),
  (48, 52893092074576116820926240042646841679385463401769167171830241966282560371136345985566702607688825132608039217363780109080061247488311431856729132787611901840091177502002718245076391700489125233059511781735234658243758161365297411419481692993842619869295288151086649599250641515050301376155974121246665905286300590345530008128552587101069874930577829977975118578920579169663144841022336628151995919682553826884166949433750096991553454631287610899382510484315944439523244980029921951499335173351949756740229732875179743853276598955062446086994857273643165904246617510951136957841811857595031613311420552601913475936252939810653974906830889008363506317792748375058869507536218534051623945313154169028496576664537575748860946700543829963740733200896192081079775013624767),
  (49, 93957005863700467822010580296859746026757177975542076303524064160358115578801625873105398443166924095568375158849469013618161170606109439223131514591880736150010830579075973121087635876313797331201530539358583847791963782026783188315523003945931615223581779354559336054958994026770941516035098705862756482542672453445386679668093107967262839204026687078394839046644511126404759870693919554924740127423061156996959199938836327967676668931872058911225084400447845023142979585297864606510881703758107631146185076734173213819322500855281991947165295032329147865298486949414711297469110234675141672719280385678252953221935849219479620204971287033752242467837827575759524933127732696506984602004757127812395474278619968384587538670865202935735516165353089897),
  (50, 166901169975566808065340581383815991278787994562754842985947666030144017588618741624165937467581985630812103803802628038136679112411346995851430394692749297409765282875299055376241530736807014977978238118866344163769514480334883687606137883281808163874215379430959525726332500433009079547843340666946503051602187080419986890188144407756858335237147483852147239586531770397985908479276059797812370964760393743466932149624458112648870486619595886110078509489586832175564664834147803556204755817603569556811352574467560651992885863662495682004419760962960930786236799023235881471188002782048647067289893484594818441314974834005574156988447885706392816768116964304990686806671000218173609424615082844696046882344270532970920123240853318635124),
  (51, 296476034790077670447683891363447331461194615582385885046462307899255295685505580535304520985554060755680772430617112717878258391272822287004114777932294470238998861200290590150880642090855844488294374450089586035576819251500263584475402461640123284512972190080871703729639791351536940024058104938985169600131039399462945372031571215907134717648456590353230547139077215159067592348807632451506342156568857781840729639743268426873140776461611891636391695715843808951867037096131217569375532995824046867737766983094361336094161048838853232130374555717949240080524402991507776792547812863174002248893062885004759583345667140636960361768257071002995700801936497296197371580502422170288629963342960685302134457929874384264158293),
  (52, 526647232117445193409902890691409433806498142845301589725792289756794732100954235350803590949917628287396026399795363389621087618958146573440539009972467613019322090087204403939592912791934939325761876566944347144425636203225470803631708966664344520410666320766239508406521435035988298762967993124770017520691900577014363839516713593898481944363547450488449301188739466081191450714965659891075884322515405467966628460217067131498143451952543775067740883871559009768868401865855216839013598240883816271874033446794190410303703472610472399949241294228317362201573413268329198226602261096189623799158759131369513223444722554051464643071496438024541784782052734702102574399237989289824140871314956314280088337186),
  (53, 935513412721994729561349174889640962969598028831622996655505162086091734368606568234547641744317799223554869629534742204686495273557466304778242334265325476167063339035643118415611354016230888074727701267879780273555776670559555371553649223778074132680024398556194780035549653924785513557390969023420580966469174819783148066298477666240522915446178511806414819713597018060051988868005416669117095149112668629055590662704530234696597025567634064892528258707685260452120641188948981687963302092293397537598715932419973410787311096044373285792939093272995151341385014872906978646375413469366168402457925584791555367613079633309206642509497412607924939616348558870095674768215515081242971827311854),
  (54, 1661805649041232548586409096164901484723494643954909953367847453320718091735123687430716923400162961174547200541594046495493002738975450255930571030718876702887877481012286101347945839453687669325967076316062752917172556013141757476012461517012059856220258995779106639542589715795653400318769889480536417754921953877038721488386128328640625288824562454803185335132443015470383281882210215027093971198772051905546810532093108033866945025836667712696793473938344211146101308398116338170088000409865263942466031205886564511783018715605211145258035549372470505214687527780089234271492968120737310483274784680371330834052047393788890119595969949119388417055321588910831730772552398638),
  (55, 2951959830429414460710714906048709309455922929447504933056593710919324084751559374817195430479401828497330457066396029127033577788445964843330999597426514381604887096193173580764661809501556869120513939205101397991540702773988361899651933525791762159816362191429731194255571876553773553838203643666045043462102315617700040989260497086504083308229554940424425724174006034113540851430683759511759509645234783592975185763211123207170573917125591816640337700918473474787815830028516998950464204496737147727342979452508773297113505813310324157986652788145887214941216097926115343480405783547036629405688865805622420603609522594288329756484754142096431266613212925595472),
  (56, 5243734034416231029325373323689861134506628524808758750313192977280895625456942821839490635537876902922825527994913156751895927315849706298884816946325889611031423710689204811512632360299841461419686768402640758939233258912513649707983504189155661931699901187791557367577267363740680386595139259584823105444926775527285329935670855615136684620247457084655160104239262026113490375308808399131921543200556832301653845712018426634159737295773753169438331306489705378404563738353945188001213428867504708865190312036487730045117652247508774614727401006620477135152971091073170538423777973921826244090633164723247375446230774206757491435130123816459755065),
  (57, 9314742816030941789782781637193442117528073352454942662942708165797917046204404466174099198302329633610766851210490378188518402770958938743461472920981081580750122517890595439416019045446269892634650545322160369341985760589013272814249319699534008781249667074404688863924590153481559763812611055075039425242961291031449050243287741613346549277740918066913437455796919611669512923509209727614408258853247896750673152860846662771117167776703206780474764739566621254526301187394310288579255488040717291146430891995812285246390332091330356653615543208808795283862504647157333293339791115345099951161972583720746670829556115061300168994866),
  (58, 16546307108511265136177447002330984119433097577854250429580219184165214674551775517008022880524167484496538648956325516636795493551715123347434399635162429045166771502649353260154658573123107248093226573357851804497101314013007007331799635150044707416838220842959018905178529263056848562865202186233451717300446958697696955650425388681046185128495733705989525930047374372340417069346060808618447422225243742788559915637151320451061917482232121675101956762686707083830137434641433357232981763582906182597535799567989107963401929786462930478326334386287281031978395439010258574177635343065052602256052902362530570091493498),
  (59, 29398330438946441145922816789740812555390343161959468607156475531964654097193058341131108175248103903861505481024947586182528723470600786155670488891652775475468480646899769486361197441136675838749971954975236667107711527909197513530612906037190962821244042262522740206066462574031958738704696449537139858547659056421011187576435353331727585291762788020824521103436442314264057726036240716429727070319931349712866705921581727826348100642834307759339789473442321973903361594404283343487375527722867341434927550551689183361209417536139638575469332315211568530700495511995270471067180984581174730115138097533),
  (60, 52210938485418972171797819669323269761206895499805219748289272313052306347053923428493387121905147506109725339139831384826579612074382683783339582819925964618568762619303517331889868290919672754595174016126056077762076643227390218732782261094334691367074086353153307196938202771068654125141648805204739784176693294298763540597413664582434975325734585548423826819059828539403137650368032146576672989235505636863676107749774456311743210823505632660228912894182850136483433535668332642081476416449331004707926837815350157299040450926268665048784380330658978056833064310398358692345142059411702),
  (61, 92745259562302300569227903562998096890489511012054268395556407794824758788940506178657214580456202629373787081895183059455462818352406370976207754904909984487968418456996257019932471111544202309670803687336684867872437537866943155522819523768039269550639768278948921289594444984369798529785985275147889292509073087389525485738709279065690992242733900735732309958012671321107710872565397017263785987287678443926803872113764840771841972204376998609157233416843315785387859542184128620519111039791656624405864941420575579686515951383713844777674568944897643583965925768927918534),
  (62, 164748674762881560530794151465144185388782133829873545453090142936353795924387753602210132171432174954297394554668422146230062237055625928689230743602250523942330641263509350247425582791367223228074755932953606036707713736540413433553037880055082084499449133350318095702801190746810831981458002495713539691854306548999974566915623127311862565907064225196458461022508455685440046685725051566023877364740648733667939020866433796674532060431244630573671757582426746798051623168077704089895893467324130068074982145180481937275630737385013477307854645531908930727329),
  (63, 292652435770287453299362128883476841985684707942672699885160886244380626376572232612314555551656159711970762781973409563994247792216396157034396613962421263321708445760807700770462200975524824761599803816025993132800675428056804829175344759153491403707504688829171426537094284028508306432929000004038503347582700545067171764238134864258316565850021461635847023305254084489992873211921456010582513869826591325597492738164695872629681547288182095385082139237760864622572861891938104249393962277624900281526010446281699335987377066917032091804024138),
  (64, 519855157164404256130612926573732625878740781504336955760901244707491776354334677867280039438464299961441613935502791144064707843449579770436835175180376828823727315996122399827524830656454812865269855595813381874060736472063756110454832445744857802599340564728871199884987818641131504489212636896392332121182991260815133859922065576633864583298415951712232084427876754782999462484827598503219390385406166418036955950350355729581759383418646954772644513754368607358728860614811153944602752910206925029964892278794560787549277035629),
  (65, 923448261587531902830422791681591471782989062513696700463149172714713916080585007928983637975512986794464856259263407725368935577001217291448227427847863264015506709568501372895842455928943160104344290627809403231084031566055732710227741456822568643482319006112925074290081363094148113879718174660651035855177337185575818706735145593890513417748984314690619432520839330818487747937799150977239434958978050388521898284960647776269441431093954399583917454888646119766426614108511656697698579155225361266490450589043211),
  (66, 1640373614541941844606734001938750818037126269394543064686975532065448039875500308942486826763347509781443686471163492195226830797673221670564566683959521945999100931903330602954976395339484731668537948868007214177858191071011731184285817548536812116230706170615373752041613401829383280620239390981854924750028607657881857883699492925362915129817431406953270574633390365063764156263800597064569339112417038237882372444581752387753742681207823006046361278899367374774188858069882042903634492607700678617),
  (67, 2913888926242840484327557936569585897665872907774500730396908300667890403377079836394706755587719655353273883460678145644011358551835183299628245877340903373136904135308068590840063463235113986736115908561063129434278860226519317202199431089417040680966955914953301154041713885384809182299148640329675901131725187032320098923384111997026762587013964195175575734092570916367639060851895437307962433721135863936255945084154903489091882508642176060913527158197067155587175937414416139470975),
  (68, 5176109847944113266676753803328344430468270779157220325833931284481355918798386720740324819944669651253791700600084347786099811075972010245939448716006902126210817064155846535206500921575840104640285284665645137428196456864799279436713450658205996369260053991487971293051759973957139061262380246415635495184136944674316335629077687134203468687818173161002927672017560462441110025386142840468368753935871363097580398729231910976328702592595413044071969731658114978143459576),
  (69, 9194612224277636986368478361700871055674902065240031724959696927642137724404460237194314385412390183557145605292856974712827234331130787474564801953018337647235794014051366004644354954289786305746037658158688070939606779729558630570168134781047409726761201468530820624985388554435636481775137330089746429599669025276502842124490877126276225877315042862860234416358790652224829977066697439061866633655396649143742028843883358475402925323956321643846735448000),
  (70, 16332918417392928935854160647168395382613710084520300817341507809009437057222386638130748458665296050954438858721456825369520411164228571136530531532150241780310104908396322486327050200962541364528179314099802904386541509014719257871942591032024452963631645835828337758451348009221140301915398375386694179933172158804628396281679838691414435126300775761781371140342068642993460563639309139055461739065865919365023902200941624994387055354443131),
  (71, 29013143659797250489911678989584352474521558143498137994360722705973692860667363293942594995424436880402482154045366378120538657120415020482649764857442067180543168181870783443129781698879111633612242148168961364838584683296423226976721571614360512106912271935648760153912286106664846536421666952313617150377714161254907754251839431508589746079080687751332219735167725962659901757645715978298283446455101500656834007655272014076),
  (72, 51537583959769772918422183718179016762269016900418494224742341206911145712254650807686578320595228527234071133090313922431036445874237643773592259875289052286403145104986278316596717676030004213742577031676085580153650762146860402738695190425844343680227958836084271271479769878348383441413180266112456325870486899403940655096546371463253544598171795009014886631811363148885375145121587871260360019021388060627405),
  (73, 91549709708429685242000246989808019980759393133684968361163123504984795553368724832069225392202607113996322991485893422867863775619820257561676935666780094909715040826070939492575457386850968078738514013318312065276803337743987803840719236163273526060851233970857214810002504277631343820435152688140138188920206202843842854953946313413801326932953179593120133266779101030217690516473448099778034912),
  (74, 162623940541631524552003449612334632939612392646745600766959380499436153173745086693390682737711823250928482180540506412040895494743216808606356274507455929723685048804828381935159303827924171002946262046125651246721381004883100975858431297536954545807815298774829254509046597196917144426764791158371812077621031822724904005753465787352633613136937875421132722435833097670405000185655),
  (75, 288891520979309673848925157431096788127048588138437326646156726594260305559067680076361816636868784277116240093700459408950371593714608076261505219854527901000787323003005742459591198466955127316829065426941416850149393278500408293529068755734489168057558145132809965882629198506249781364590190981675087569144549708896856197618090874572760949559909890015261811696791852),
  (76, 513150675785117781679908978215920630531053022819650040385743075854828512437517765894943452363042074279969708415910161942128895423662939758702507212800125503864351319284930415534771590816853603029855552486113404462834134851869924218401732137120765191221549043415418277980272803047735963476517044300164421900452289766077228584835164403846668427702195775279),
  (77, 911879014472145559459355217896360187058108960416524557813931432906576475821170987675770650959471577106410079722195452888754066342907988225118982395065328425846786440190596478947350911876159398379650309249054629718354201312149357347375033173928586647922627548274598446114612046877277754556537509804777088702060513685913134783201473455217211),
  (78, 1619218026458487820790531752931201428188642533583915458913821819633774896030030868900845321606072599677381212588748360279738723183410489058999930785334156645308132810199226193749377232208921368354389541054336294290607360597291860621505823314818686302239314656402480512947315381768144814384732740490175979816295162119334484797),
  (79, 2874018173761129046548794680704933402834621742183011174417369312024268575464034141959071324311887596114342648240588432266015577168656861159407565605987259349820334232763010023904632226316517047535817364267310716611678033978682626267783417197967333615365595165647559417927325630624960772832799524457382930843136),
  (80, 5109343118323904556254425634209496343460440885537240827162789010628448121769873731280310087992083119559986907926659306698571127755057759887893558491832326810459271804961195244040371090253838762446851121367949908763948203685083853482285596650410355555244558938759276401330880953540025493247251233),
  (81, 9076040114035451461940931784583209845465131275526384754444721087848371563871463404344155001973809483899635433304052455039911005740393756822006675774399710678072506324148277175166637636342371746033673661211599741367326617200284309696568035986600430996067924891696704697356741069944),
  (82, 16122266047869694373394534115572630492307679812524840587885262541234856430937825408693246658310129599524413517676214269944849147198666446732498009891361899046457644574815159226253574168103177976738198592526265729901576515856127303758531562203815341129738378379997941),
  (83, 28638903918475012077328780578785303784525718811174183833337304109888098965246030366198255686773917665760948812593561127913627618251622165281710008987339671766542885622432655262665966136268601158627313707192143186248412949052698182745527540966824617822),
  (84, 50872887637140015181498713916274417919918072686495405875978009840962287063218427542923633533648006220077414848402970607778598390042381344471642706041674277037235952449655749750369273729123259037830297601614725160143921854055763013496554),
  (85, 90368446678663120429159861807381782357299668197241129641551601874885018903389418706573521221902441008768394398174426623454000744587877864155701704494309395108936311688925663957241806501241300272856539732182769463966309489),
  (86, 160526628701523853823864353250260270645355055409998892903434585779122841288552746695048517899889519229767902455115417086118566614020852982420130665814420944480058258316320667495615828384417460489961826921273),
  (87, 285152538601387707696536568900166447010862511555708689415284048956110775537038333387201303999695453142497577793190926069660710884172039557334064460739547166690879793296062242660367916372538741),
  (88, 506531465525171572013234363910764022815817891157851159711239209333720101018535691459068065831398613616884065184356752778093442288024102882555317159812657016066667419067962236845),
  (89, 899782758908640874898437868807433742091438539274076284528391411030110824155877496524901532725222727638762392090127557930375781223698624951635533538839371563792274),
  (90, 1598334062137114225547342845907852809904303648207509706750513750074427287950975283878244519564892506191966855996314855535548691675446379180828396515),
  (91, 2839185232089533258582768430754343190220752953915615718636223742849295445711506331205659982708464847205739604782489259458333867832788),
  (92, 5043456793138502298223488937406395635986859707066927500917355535506361401725244075573906504749301389877888131976287649),
  (93, 8959839623068013018108841372603192840460736377358592530687768452580257884688427725549991688451011742003),
  (94, 15914343565113370444160552186969163882505467770574772718437791330551351446233453336075236),
  (95, 28274666553444219975556694201803274554831322865213121547208657529039546995),
  (96, 50216813883093713600604967916927472813744652915939928294694),
  (97, 89110629990112608996016462871769951022610734),
  (98, 158456325028530082937015851857),
  (99, 281797043782554)], [
  (0, 55712001078482199529761445485449657278787240862939519096126217879832836646582515407498883954916045943090872364241953440932018733228582978973295848079902971372849348478070555562511167951903582976776471493674610840111903301022671919510916420167271095697489293806548747640514213202582843277842964509651489912744602631964151152848181552786014284161235594239622241159140836081749350000728813257359812020090911411477377057738241219723216888490565030028147198176261020009504214961444164434731327555937763481256106100353976287712114401594925128652055084166615987118512291932426444091057146520403527176369014497578018947442436841269682628955595991276032235400547765238296805840659860124972267482011818943436907912331883611563348398400248521763851049800947074316244401919570009951154394033593865925046881808633603637442303543160021387279599318380755994648959078179360978959564064303809995869596005984211888081046086290852715776339063002633657761685734216293069805775580705034578512690959451915159955976948987216307241036575963014944086875859576160204212189548708715234777084027877544411371452073366815347831458912964605883829373849429972217134719176928927606364177362975652340949412895209277026111436722297110425769632917410644925006148293966676392036103560493435603806025040424240378633227361630707386784910688628623453495187909243669473131901014085764878713663375201147087847985132410807822389869576483776234940767864383230561662888080275596821301086038063322138392468155466403282944),
  (0, 55712001078417278887197522908688778418180931588760307852822874666892850593461503644360032196771319706695315399257577575129120498511751259814712795327485978608578239986739295104602563930160263526144296660151586918189664436774380830197670233486190304478618555287464997399507155495662282498531945145757724278621424191734873385747854939290347516513561839698861408256861241669849539106582598906112569620887890641059125302915573505829215350512388380671903349411079457155034419074829467633595259769395715025757104689762963255858659108103742326250715582943494079014390324254536751476136148983054484405459404735133444256173012989008298943066553116466619886866322664834678486544373118816654752236116665325799216495893216553268580428599027938867866496428734470784035444035928505740296699035676575491253887558246651078516421299038419141928850542418843539868249573321968004732133709440276677931617507074236915557643459465463454394517590484815212543261208763877379490076502980574261161494310664052647855048575263002256806423350288032653498410235050641103562345817201069042202220045999502322021382864665678946474868467272980266158818950638414589707145246096478178390622611223790063808963691061408398523617031163744499298140235497949501158556686298986625454436199802586250921797770235358832396755090863006601340817827325218686033247569506023235378642513845660317177222526194960980177903989998552306287066705305947613414060546643337386899414944449729004454177157757680263392377736434623889457),
  (0, 55712001078533265157144042856829755210271025295305804957753615711145956974413621386288313876711206994956048242174292556052546738073551095258559299875255611042411182471781585080497499674429040209573921058921354335721168106252364190699842239342513791900245764914436050563914896256617436238760225883469572053746338556170316359844835421220489194277192164692897214899104732561195117604807542695444655148117476951210531573281801462080616287118211434639307695615572158804472660558290323579565027070118287039109926032053673679848547559358492004981910233704479733854576321318389720577778810596276419032470183145906850954686788629254214335291344172562094667646683710133511638324252250685590890302884297231348972419888836295525764956525084837205748265045676494129514685818106379927327131020753473261575544465856420317917505953045287048812109332151673479460943768559369494423852688984042452242824031362638235608928512197168760243561591500794204274641332916166003902811610213939835811565992244383993543914619199113910180415080121309576726032251299008395261972620533993149504704604527189648892600244900071776929067703067222722359624365112061668457409263501918833693507552624249271501923652073879617924383792149818867807712116278796835446614546559323241735211628260631438739534496752270408448774297492678247428209306201786705748391150273359232611918392066726588079609327183438801297068980079594815653540989366824360783599298584545380451675093863917600430217750213450407524837574421589051497)]⟩

theorem ssssLow4_ok : ssssPlate.lowOk (77639339567 / 200000000) 4357049400000000 ⟨37180115858359600, 15939377645640400, 37052486930359600, 95721696000000, 95721696000000, 65262831458361600, -1691392189383968049, 0, 0⟩ ssssLow4 3 = true := by decide +kernel

def ssssVec4 : List ℕ := [
  1214894929153530699042385802270394247380007609340324085901356184637232534512100769120846304241830247279188769863894142194972047206602502189011085990194454576932151719438115188854676523631941338261059675853076532303460217832793653437318437031832429802055002357845983714035819513320283826481361077758264107719711246242519275968863437230890060414846083905250630516925224963972209571647281696374571707360391911128475274048985607676452256208997848202022757103945631596367790886440094477678602915964521953856369528134529122977517825966415200461016025370335133592903723786276971225178308540150074492423940574948599454434992238048852887389610015526820353950525683922006435210924553858881131524772397250194810983977224845816341056400030837061562565461546035841615047483539279333112383155918111837560584914528745188857831287960300773353872049113244516453655188896580426537618573915667391484741937266797551978565449132275747112765979007258424341964596670317721119051062883081087260579330591985863074549110422058120984350987993330442180868722917955018129990065764918860179883060636015430681046897139473263891003349570829138250509112913442544850482227858749846730323788322973522746673750506906692700152665783767727792639958013546475878941183679931773163665028526359370105734913982075472243254024212255804170978089166562288135153369397454378195227767550376558934343575037468711597511836265987261555110097880469686042088541799306604713004358508295481974378474336200020171767832874705754245648424997139623813478207835542859047562102535926193671969402473606334619872742356790424216289218897556535867726449896794772532569098703738627105711659432859551843322573933809330813939785655700285899068373831539089622942824493496494886015020718158411001353143018424093688483033667059285356076072619384865135055237369404493856842293158379965376205322409398595170409196149122720488321758296637666,
  1216026728785785340324029600314431174207907639617716803154035061722455551760836177494612623586670663387943760382834936861825795496477841276652798389634004362556226691652043243609226308152259542736905768311204179839123305523459421337734092513498436025618274286736541326608588859002373234950079544327748151307800083221353424962307008753169972352165801017008712174073213785499616274391378633342594618556153020211100377913434506471967707826542163041915566273399540796760649950856329875427223700136523709701291216775831321944700007672330409906574350811610519056056529065634994957670094769124826511060048927634361239838054278790655925049868198934123307338520410542432391603973540283457406959947557177154639640069379901173739911011959599809819445699689545344840711951223530315272106019091209844866686785931142838326560730722991537304300279008423214312550718856675919055685739972727667325122021758161948347647660918287581919123071363521724675498591116276940294627929135400863569350277496349290685511311339573723000163363291907967453433903526011457415253185410102377267119378714387327343092977707298347051631509589079301663024917523993213763132577080743114253018351790886929831530178762296761844735995856559979134959329534012984078295643712776652755534815937110172371671473973462814544566595609383317427120390379214409768187536456829861880874920472501586518288106135647722191535320487075383915274004384274524640059541402297590655909567688786784499783482438297165392855639469851406615292284926187741609241785562216610240566201013271474082022752748227035105782892181746034531386940118721561962789340809342901910057680412410513505633157899283650437234679615750914529196137210601546643632482912869017259462617116383860964785823620929148476052167621847197938218966795717136150967960806481794168077716421367939529573294800077458434495307441174851779164174000100785685337322618393786,
  1215292431321882431283849906053586763782469844874172691984374463659708137994078937162890378434212148777443482236187341785090953566520758414863856006389792165830862885400965934931978523229060925781509825557713358042079224333592855084158254180738628441772040737345600839994024303746716382499175792522510901202967756084528256814866096167138744816791448916722761679527044995859266519098487104137840274601204181370609148987553886286172616450942708630980451655404029233298665080107526971816680167663862258989554701746481647439115557427944930713413743932864926763743203542522484988931541840544285025074481027850897186189632409577418689667899542882814033469695346446956520906582385320726507887333115543094163366395227702445275315329209356102520775313291723662883031537766155179861931308687373606467837234088357005954848401574977728709025881363601965412808361258988232721183688292295042081118150413312559415027643617156504937461342256498927316064824962018165242706783254435002816089077842226734800041126625763176143014203033382938198624090082170032512283568189663927920614925841298443598397263043109326566501498459997987547251167370715389803299010174988865347166928725905679375182357910718931729785217300968271846420926427609110724393521404735590448097884389801097429653932887284195861727617105755696078991401583289605340657651708193765601365924745769361047650059430133515998014551308663795278222037644397657061702450585018581009383263418869093563709788591498973087526809421830419983495099596073246278071559602305868729461561457530843460836432847088007215740522314723044113985496042757575917222269288230108555598966856610971582372175169306542701768973429192807877980243112945462238894927387084158152674925911554974416772504067340253317120858665305951309825849390651116474033632261296495162604978143692905095778105528252527122146295399891028975413700406413966622984189481808301,
  1216035917897413989084669119347657609663688179944354050731218558883993759477654296255925552843511862023835006381421708782462626739484790775646289097909400760168676326339336571913599771332520553979852735422177979967633818333108906267406316208752892302119366403866395298034583596269684596744291916226728612666430867690263294041825281913620693898903265951118202215796367056987742138024012033480617036437975425383289572574910661119851696215980083652821515302487446785245328959638874209299961441576286454518175637906500261693249995926703609576403681011450314386488362717191244874339116324090402445694355818217872749517586916394766347856113634723986070331171779358482912659297356703016654600799047737297065481262017666909386404467639155250350202031078183037920418416780885342093914351779038410307665923692111508570307761566139026874631138122062580996023940588410814414716154412842364305346194815005436800013698597819252490453255660648347609166273371952603341589170935676133762530624763423686074152858250358806730758866650546107295775951040442799251697728833948936651733252704659550717122096270694496243915181731742042792943063980798472815384176871479045417498435941186725379238973631937076798236167109033087090347178286771384313720551168400602107785882990917139539746571854755668463778138434764205563256028487505185262639246487163627925642497282106163225456640347260118809066628074686563658587769461235215767759884176336817661245329185421026292589468071468582333996855984108697540059931660401792132325498099802692400587967834477809202983354997609069769574436503678562280949690356403224988842853524474558283434746460255511304553524105927073072080378896486518045173596572991296899041747546449772558479862484193214735872769506155214340476646186611392777117202764060238018927190754036759912159856820955505243291123553130234062391652580134811730629679104748107688014012737657898]

theorem ssssHigh4_ok : ssssPlate.highOk (77639339569 / 200000000) 4357049400000000 ⟨37180115858359600, 15939377645640400, 37052486930359600, 95721696000000, 95721696000000, 65262831458361600, -1691392189427538543, 0, 0⟩ 403 62 1240024543618286394185695003500672680519739519201339329291096040458006833829141361420713288243368618928847209943690 ssssVec4 = true := by
  decide +kernel

def ssssLow5 : Cert := ⟨341, 274, 49, 2 ^ 226, 2399893523855978694679172392259581198215903619866561252586853203508406000000000000000, 1156869860167412860953369952260532685475727845472310350378390156520828000, [
  (0, 55712001189011176925145472232065554599767378551017045647340512376859212547767974417524181344579023193526286813065204295788911773169928513556107023755136946622513723749655225666829057455127456985180413582114759002912956871002645552726861793291763839645378407655844559605817114408793121206619828255659455118233161388498810883548101545034392272040513637424423494334171875571377321868991141930509889407903169368333520162468526021928208759190797886446038008256038594328025387738035949280250995916470864425955739808605000121114011970440224691052029474669325382050749707072294699401291467634882476739663341092177795648175534040082659664884375560846702130920789588312242428547149301939674518039588111039937626481255168749647463278201088364088750236476397533231550547150869228620673314628482272924765850519314747421378198099528125029285784370387797515949558558724528960274765433615204401837317989704708548020480060806766335236256295869751319111404064125193010493813224151618904430059437914629354225200107518693423719951509851441315471935374257170898243731337615418196109430634268028944930935005072159842351254711838339897826103383509952474027653381625155827298745668258370133407413024155982320197607576116313131682576384815527455131083346367363393487230264421909148820256767851063058696826120183408345284031219818065436350939446506677481557056516582637256832521868577620738770116383178783339396139409891047683664191690577274282307722173062336963273775629349599177600281669431257697700),
  (1, 98964394577052426616111701196377331651331738220778349012967117903851732414698742488936377812635824711408235445812089044347211822504474349328850580803088576206550291662083767386379034370671672997852751525416646740482605056228367655314605702759015878042508332297217743043996942708782424549569925060215067915257505935155900940084172521559640385595773536959138941512457358417612116712921921399449169256907251541089957898479516983968299573950861657652620377626924439019620014844043385413096115889243459123050356362981394268948807913398666212689793591074672691608110312073952838161395543496299982946003331737256614228440628077815336575419668070358611146563777685153808676828037195384912319008077676516921655997796019016634228742283914880960755684246043869246338661685680174913262493097693932250386772981569905397614303318021777746290020420805334625731185321909127729528124994489948929470051746363611332393392191812772435851450051178134821158308757616409059325329148315053579276848849784528853345496977530845915752698502516798537628225299745781725791030360869415250556267205332687912290140919621983304545502685466098262016403073327440551042525327739074188557127867800652313361400486469719300583941077192998245572255764098993023024468024665209522776525490382232882536226512323280854721350305008040448545905473775963394579307018254427881170381309116000073651015104827292042769610739154510557186277353903316437918743154671272888311987764033050452696203154998498649756449),
  (2, 175796078408257905912408568204823717037726379177192798908070729266966573834515628257444961520370335693164936994669235187354398126151090808805493909179524997182091818694294501868608362818314709461280827459372620690665591291941668512821974244405264624053258013554578888670126506102382509285424762442603413833527305249052738448579138862366968527217050495335405248959103047999834850278159040392302292700677209149875546889466449071288003269061551438215334297590493157012091067174804316405014073063397056244492042864220154949274774684773122906157006022305628510984005619379076586803881158728144263888885834615355320454125500536638394324907931989978099415179717864699618370210972849131684342580687031868160885084105425651147257816259862253421285324741255656403291917534090485822743914095030375630172181248477758854602829217275084614487496818330063645467648931512168266068813803382884044876474996894179812466032703101515791585403466034524673796606461186933617935634731510466877764897731838595134835993967254544429444401343292653121119594270090357655294479687907005208183625273162566626941181240232271260925896609387198913921585715391746778826051507795398397911320487458813008300447564988764449269569541784588911215077781675869962081479540976294951673048162571899320407551904093320941700951016687947034247596366600999345841756318828244504987108846812365325353970274729929374956720381071442425370960489950083219880585687525411129386597936302151175046191958),
  (3, 312276565771669450825333467793908266814033247805350408150765546528117140610861629055365780883952468466059131813023084597202603474116965892815019094436642068537006969967145107957243275574745022356927380628265875653554087974104316907426482389408551584262831273894717908784192654580791191375565710362598340788618944041423177430493636182407518072747305862479274296932337059369146799512227362808026869513193173186509354997144984799833947966759624722115459247171469045459058159867400277961527396314701355245727156323689489099376350302618791071398377480280270347768433093336490113676050957395152117034375038080398730180451670859918936644869057333496309518564153965553132652465502245972166520946072540100115826903112119029894110243898253656336204891512905312752364780212354607263966820999192320852716388998727863999304176904217409150188773951882477561198374019411180110575208221030881012884795998462275268160964157796351984936807292780569787140087623074131562883661614595772048313645154253685873823946421719924369298781114086414740854961034977735768028449037780034709417745793285840975961744160479509537672859766175662209982352110316681609523115529054634844012788243485813391014486108333866090175284334030032339784539644100145369608045120836444635250013746734140192682282936235121097055056119186867856156755140157645642156469128543027780543460205651641754172507889120688078379620090633620237564197623753373842098213808628520270926158323230),
  (4, 554714614194100890569608154205181876890355476557137389181475741583948037976148892951588345755036629401344058699189331674304841292188155958276497194116220292099517414623415586367690222025733689364508018223625062531276576262061860813911305771023237667455466433341364848786461195755110425850951677238910150311691507811140217072335643524828917435111750621557165816677321499423116647735973133744055281582244562355058591182157052892923870272355314586798895546300900133181168817916799797286634987129039127154060164071966859440867954086145819474728104608694726080633303653472250165532535031427267672946331489424735291970502822770481752725139527460883646832828569956813820619189002056365809759666067935020968354058561546467316727549411729316598609820893772303671020293958938137538931830328753057715516973465051493309288979004999363315585044706458529303682584234036872183194442470280049208543391871722450500979618146520146128640227865169450115475354306009122773318142584154254694688368557528498464757735063230008741827801529178873533005922287996096585219989785259594511198273655973893179185936277116649766138920790730995394478524351912087139130978348748961823142491958942251635028896707315853165593020147993168709243939674048156101257850142040916311770187291078478493393978029225155691080805120302614715751662203034016737229076888569123236534301531832331537608758087627022925140813583466675913293896686168510746160792551687331),
  (5, 985371099015284213678039445090256361892056016366514245639907809290363474091005175933241741239586261731495660862806540960153953224875359860563136959771998248302763665087794818274972604452163590115764072477087869082652691628722341972009429958759142027741749073993793321218963179325521102949442929373494718625135682901334486407735289492102626298464411136887834839959493067789792943794003578515703040499959429438263654509751335372666446286614897775759069184896746794503565003099393325885888185041319187860827993195407249386702206315378952500663770382820017697457974382331854235470082989889891738374023436520819940907918697438184633746641394599236053516774220967125286692529367276390458842239614420790760902402283836955614662713449932862420512247020347826098806124587695285413615739196632185818356772332484647100674041577850227924852690687382921926813727793821273391830450225258713370911326084085145952404912947286029306072520859218743594931907679176486262131288987525662208714616298620950111470326879696887469623375264762196746323888809104404066616997982089588799061931326536362058982618418033144699546690693629361209437979855147072077586607969507744477528433691495477688888712273046609686097956810118411575877493035151049458709084150061649721741842604434927450754289875206563166970020393175849110588083780223141984453493930372753252625849637459895905377400000838164710479923714468529817715953285435777243),
  (6, 1750370690769414869300049419202008565035491063433262445450704420769158447261593271962581664100083081902715348827328079028865227994212468513679579398096808894850401983280005188392529385494513465722279550848778024372609380181139864198170601111658297747260733521674363162206196146056198135905896615006646333399131838473614889536230118220113342668030322908994756495527915804532036660835915951912209946360021569248358774371778991723661117760715998286165116116295338057585801736296302711327261518283763037449678657836101621225415011556557501134440979533516691911599917833706574093338804813885892040510652053252230307047102206839174793790015128288868326536656593459165217271222514826259635025673595991141773560877626113469728639798493237921438022405937739967224048111975939785994785057426505430840015536929587747765606284571584596913320882401362382658994788831023965588612087193851953285606514530450623283791941002130829292647222332967896402056828678049109267608326508784345244969678491248728522077330274028568063196882108064200187079177476066877492657508000992448297027420889293470387541141254067548375937715427125101406083061780905512124057805218493165557160115525575707238399831726260301753610494772834268618652964222596702560644914293121380424383647343798411815914143826318673995550725504817629601131600260735991733533483073725818114885194174935558823332485133639725562373197915366703603597),
  (7, 3109282947998388435836543242564253802513907554907737388350336556272167567451060016147229955211970115175460244254671104465493582694275132014465272468433238123917446154437529530352147908485153877854462326095900277325970289181856018044670333031214522813192856911995589537978533920231566584256758598366915195853000497114455781707385497988783444064810784043996058306200244699772757304206197756477430441986860574289578343731794331420908382751007322319004868436527298327361189744978107151260741281622870595375938179541220829522043723001778207462115922773390546209564596194559677454508126733320894341766301747961544611898275280980813870900870198109955616590865316593379542207755281300690596308727743932533602773166561564561088632363075840592327764496819018854826618290114061222083872821569691231685570624391773849523731750304714211502856691830244776021379050698119145756950698123161107926690817856181197556290429325328375564262913112087353355761119161537490197631976289950288939794201358725634813665730846368623542774414852702388437484122692532626080672772765182099838346184256654009921291587737136174861036183114677575786569081567704136826335097903313456438130226625784022549029202494175071352473268869368600878908487576468727443450552813111338778663329742294835334602505928869027155992331976001093022238185376947480890398707596621957228713400189474914263715487026294819696581606),
  (8, 5523196030370694519490602751129872987563946508519598548750438446597428199586791300176341572985404809062512300371811819406410666765283057366787999184221739112514001590431458778188194455568277368889507864552585166401026519671152078114290560415677162388242240165266334172835228219706729595370908460385783440979115314514462503224965535004279427038266524411335185597572596763575590331313891789712910131595838362904254025492087830474307474272400260360283992231956960681299175715876190032219854484938034043652666888612953183957964111973129234471661466092519107462556422579618034375415792349056469471941767857583848910001798102890594618551522745687405073073264481651825372624360841408438539139906140295352097506824387470669757705633686501252128303577953549850319912543297008988479315237497409648614628058897918841772774744626768567722628231603749787466321763113520966837087823518407898199780569981475959317974892573876795738606867963150651875619748345262559395412987482552257714860205289380260463052341946655888711629683854286514526066394175032518144860384474737880464747857840326857088342706952458512271226781275109872097317449878575818932303328440302181101027733613671476971627910504629949095315780331864294367594432258812502303311659727064087730528282909511229214397837360674300478364996913875436363635609874023078391037674754875101804515640895034986056243076502),
  (9, 9811167043901340019553435425193326452994565603916131444048542079520243107181672227864090697159204921864284082184111320478573443603144182214483157983733009293515682401317973110420493135762610197214401692789114317789336107008122135375618158243406466992408520874565970908724816911284785566718221233107357315377245206924034924686314423005471737723589000730372142279608538566689458217219630766568913725301659567473440094569159955538627491762942290863295089772359176315881365552768509201029365302010594902290743086139853418748361737223493072035003095201143631313226748882821838802731720196212331214131652614155342239260565122975567089459246732400148936892825121550219890716101110827498083636861952107156338555098389612476584386175256485255875398662138325087939120767785348572275156936188730899131311389918476569467316348324627352034957787327867856542451310750032128455639473742513881680926303325161079551875330452616479913880898375450585856556153585862857151337916548860032630319121269958620092539508641447383875128956869832018536436817850085929633627370418183683866071780957156928526524762765160340340100349383243447097388559543094497681082740710750962647339804392674146302120634710926903534874695185881749944998510533999285841223643569518652162197126140197535426093240377962962741263899607743922840668976918961017913084955184245289966203376818251),
  (10, 17428133688302421453228310058330338782051340635443913143229066331640052951583102220687054805353344315129824964828873879276188331327942097840600647573912092580536567859858362165308853119621443983597624754648739780940055775383443914092306739189455508576066080653337137069184621416587580482749415873526865036291614781171876061203339825485083764052453134363424125649033774351830464943908214814953476411941973464245575748986997713082496215561461640398891642375273986118094907279925067055181778493907246520803104498743610075622965366836766764554842230019071082904101564981077995031396435800386006680808409103764159800470304868231973526227513526934078082104797064605785672570444131357265726105987140301202802575509987392306195165902599171363954209402291233132169746371601152502359374625088512693240807952521327270280198361593060383621741322379559179611134821994226231155872885121373767549054963074571616964852652446172552931811320431574828351608701707743136089539152020723249074347172443622994013509277762035638359834859118936494066252507608204766500109442385069460677075243687908500240634886712066938517518560519425320164610222552744800870572471779297448102736693414199723294685843542724680689144594299336861314275120824469952945095617397829027432298955585249661993056212758174493986965175930015135998993860464254940196650416446666980),
  (11, 30958584497201145865152739292910809703952234764848618699785676149408521689485038977328780711214592742186788512542421682020487349999329849310733504092498160224477759047717143047551654823059635033540900997538480490193522236269860047022156167741002276441743524713287591227272951446027099067357698648129886653976145498208709345464017999300598714440388443598827062442017975810431315291877251507842984251742437796581816486835513077711998476281283602162292353259015390012988884976526432714408531704963594409328883599456950991386635154749526214826954223448039311053074614541906978828574583547937152293819088811738122528019046327747579748963025225426592382328032746977757223651905434951923407096562598919629692399843148915794393631324377207754845574812906454249108399268871371257990245266919118983185406846178464040587138385444002446826286441617467606336973894251082264885794540192178209595236688635162628142926152396320340168735923197198977032136316252430372715966778085126619170429621665690767979594863517845216110510853388472744138067002766697091661613385769015802800925151377053133948577828438113261299078751543006278075354952137766490683364286962761890147594628270313958008524159676698930544203699513624443067651216117639325233252593444246450325990230113770439653717442333923544460180059966793396632430954906493504340),
  (12, 54993493247643550730209309737791421858350800667415478280400685283490559817631441493033658620576168266054507770948789170942123950374804387214545627771749186697329138414838965365019409772486502353980308238928944371865959572506171969473073489465700441988533894671692134805441580228021122015689486775726489653023013826508072871228544727242750620215232967702404232653097331883344655661878361520405927586608359338420032629753938378138475088414636186805682806493869436737926066058066160455744415014856383664125346812693361870239593238145095739336684492908954158650756897942492517022975704333873775016348969767603755247553565983709979944768291434107632864347465112257462201496354368215974735432197693566197518174106172313511097114084052029776301314567620505074923180006463178506312977919629312439940285117807137529317738943722571665158303098186903567703767193235772231536479265338783430743730161763202819419098332941050254157680383743331594250273802912212711741290642661135197203621190226819351231437251712603104062040623402035285277024711707831907259383963963461036711601854456929192825946595159165225963646798947728387120047597221911801850845287064627028216373422129448709130113181416230019815993018508839989539490703702853205172977009350558466616585894595599270386858282101446107457405089016193744361359),
  (13, 97688067801441351279107905298955785127640156877412254674674995773173384990263750321747738284397490477698194137669790837781818319863024597159773117473577657435141020382231119985470250375873230257333906702140684104312108718562690323481924977053658925391641054357869344507440619914154359264287401593034264722625847770219647393254232241933392841580375343676655883277613988617305999717092408483263710009854459382112051274704736496264152452995803121529746056141628856868137888034915548122259090646202130835121928026365233558113873470951511586741159176902020117473391231582297949802725760332796298026272935557439540936781777976289784015580369444990599999618725387180116574459701075701923270052164100617440490620060828670129578414196863283582553677253950167815339411933324823763790976670045429938934638479328332272002147353039428688859467359140576481731830142522305949379070481718375960660919248255327585917683729024429100190212824544918548629876533897443749966473897097499076095629073809616856800148994138633844651522932558552699550650622933026235838062333794596102389275944893264437464184314823737952895201354633714398491822887837435017648413456391728534300842631877631184543849391064685997556253594487178911913588023329292461223967454582675026836558146406818371004011575274026501660859776),
  (14, 173528867457602853211090180018080113292383846513058143632229680116173871399335108936487528785228788478437880997902261546351178901040376231274525471799228886938925375545147088877063440149344698563018008957540177001826760229269981398775497125686334079823301731636632029048411531349064749783524756630197389030118334277391064966989220900061047142325984249735266095719257871303153482925053815226644491287828296657448759358899081234813052357495926789308974433748856395343290838212307861387432177179868112216195684643365065460578193772934977359209608148967335282020647468586499530349310511503531871045507394100983811442022195339773265461480322471558719218374585487894482277662449338528477724662600877944554999216106395367066189779382061400235348404798528488864279471011924766341091492925034267994197013839902141751783843141860515618743506785069808056074908495205325401131061829473375021694364662508310148520089220481428344456188595874960353053782105512291444881506327778584577479583114068140451157586852201095503926099378235145127191452877193435778901359181998157257009461932626117869902746692229530139276669591487704909340931297472948350249820102522380308312238102844771026253248374421850836897466828815662532853817264145901005367361032716826637536045387640708126151682149065),
  (15, 308249190562721991467460275508306648778998066228468968247697686747418138731271984212904008544530675634669600259704744106768998636021987089418481835116189307313999699268722344450101767891009848055109734062893496581093583922288758303531747695119660531757411334987154627647357380276794131627029766961012231969830893178045952804138201566159798346625931098420509891084900554082254618828648844819722005783055459754380503276940616501789372696651498130428223616400918587859690979224059304471993506177684520195168671381272338472730467704234546993110828677683437276699532170951462774825654532380851425954979855705491715918670040137670290452845476301032409448221461199928704687153250280570900922754295575161677537514294108153156071129069286555236277022846245939006096112021307414225072887656969579274978263692381139153559773159257525484263131822364097326717562406275219301416464598201751662849410874755678251498072710723346429561938801006341141671088770132990951352527058274184234043621142948626319275257346128304735505409859494574144041484065614109627629661727181785136192596322738354047404622744666437321541747921084069632015856962204576979796047389918122891162278013542323061030264808219267471665313368414441524275477559172192671908919336892234742071990858603402),
  (16, 547560557858328202136044332942005586444597555760309894462896415739897210520156989923802121869112309035906256536721368623695692480608491280994264491161235780514134233178327012370193307857506900286080538352210255778512988068420357776764957856373315395127002703169837671987182558772275431652407906299676212106649050872808868992673236218275285130539502492379612809998885738043192240237417068235003802627674575989605763367956566566178496670508994793168447981393253766751512702895475369841792975012537540258834772525634217916156937999586536707527581396207719455605782432898779118775262677882705090109074574570773822432540855868779733510406240305594585692073169296670347569402164740656399865778145115025703563483941075717229120359419156925020653578742308775508765604612160087946488797795938533791822039586317972336029672915877182143831555779341357483099367650923492715238934099795837983840621533449947730346584114183691282320192029748907185842712560018853321343665663919035904342592685531441512643250642803339643522674615812855114167674418704177640549213077326724870450514968661691212704896116024652459716681347163139251547123956338343469701684975645891809133684831410347359223987444375649270402799713758698651516552400004392753555751558247852724),
  (17, 972662941933335340317124307930357920949431336453998808183404980557725191552376508139390419135260541754755679640408109465499853401236755777220477681580936343484429754723728782796085408147816346247718046970603554674631407135939520227040718240544388407584379509460720701488841706386710541786715032676114910703759099549808914293127135487782241959765119173766826472464440892621058451638507538320685988388816216015460716960721767301891833959498286090682493204132496281434086797281121759963286099644207390963899668743809901012720869530811310660212388523451533982815277378268724676783658053874981790550782530632057253817361855349404767489324195160745251962527982213453343556139506578876799106357514718871259040974910857167220594368960311139336341882111305830358882886793028039251398843771064930018864408296458390939021215043821560440143223624096974785152723104622064008622981252534222307523725525980513888220884925841882700773338634902467708687122210172453520405089316240805478462686135103753093517258589301153338841402189560542652794205958028955756771399511191653442795564069522199425913873221036159475891991480212582268242804452068443007023976642589137369074614591597807334236632344635588311242289512888966225355744005243472731662),
  (18, 1727796469341808809351245838029031875824886104859706237655458678565329679532514409808454405947001151230887523602677266986555559539196284387892813382103247628117783145765996458923643538456167334800261315396526226316239464953700404130601946577615947663243788114823546627519520689089563405848835596368381184296115665234102972973750839302937934152434331319455099562477505128254439577192444595007891637564660601659909610382246269658252585595286697881014199525631523447883743233031790749012786383246690487632262980571389669114769781295977768248325959820925893594498173324478514561847961055360859756111938568472740412193570847994552860442543786474888123603318362472231392998031094024191399389068116969971628645328827731037247823563273841413443377022374773146940396513872050472165488484514271531694495303046913410767620478354131564881033659699034273991565331703533803775273846930089878337461689269561425264040901948800746334478442103316633257236025570801026550581251903881737975086650454949073688570973064001519503691723696123030663183620631570848501508778012863675017681190236814024519904169106880684379513116688518477920529834195464518738381012957278169411483682950007832631048231596740618549449653204850614380178112),
  (19, 3069183075407396115778146198677574484341450970181136132116158055781665750138971659159934524980477183936915724709978513718461856973829238950647558934554602616800065302608250056271366879966061784406889786338822143480640076942198069947486695417329224256828361261520095307980151985410387688258028850581794100055189708003458285083589370739077074184023837575284084962950454767414231890720639304287181032299372700573203900379632254662665515435000216502033184591557500853391635627700613260469452043248351397132987653760481842241324032643766899091069155201750937014068836062974762389612449440709256547393414278239621552041136419048131996111963440290228629444127297615802534138778873412674084922214408462865986599198767735277895600086977825221747815056099173844792994821468908705462697985932636900937853252074618932574765551543242299103363308444980534622982318594747018709584449360462547025517354906198986736953806622486930257646145234213884581457940134890822823024314071040422854378761130462260772764364782680884094095944421688811464221637876870501317853408821162728698824448686245232916509522471921223860684676958506995528472561789369467380100192732780993130547149864971687921512369953882941005249151327),
  (20, 5451964348326734436034746113819638440289576076915756922109050520518989992244151762872813707267813305162682610782279166573469186653441068898122990229070186781116166728086996235487458923429699649343362861682616152676210097193941715017400764627461618917369519124020630658208064364922815702259773077924771986251501429955194628500155235032822429991413121453896245263321048793600291256655814531686801832436185608039066381663720705610769108031013147744036211121177051728391671830290917886681284537288966640638210363317629293857418406976040921571742580221594282226812414176268324410869925466567295486732297055556767138440490014935473285091715918268471090136546061102746709577633380561684062713878480915033307633303478969923574628771580470393993791865141897932821100484194160872688527317247180516545581265180690413903204339152771776078288389791399709668153553080346074909432014352898264207433229614781906487230440128733779516034185909117696339574831280298331566461574947029336621661823146243412366141073777297349881248707694458094442985502975902269188760682959115975929627969662030580831651558336024337246008631704248840991871896133567203527777770557965000737072083612194540370615478750270),
  (21, 9684634156407329020413477534322296343372196434788530804197718833011094347110138812130578184151802800658907707153745360073064705834665745491265773643530239006251610286508975551311621225707700769723441116779573238058771228309507089470641394969663988613823043959093298741917818380413899815732250312654291844748978716103336271750715787955691816270506591160930839346198724289575178574612112340324867433104053636792259590365815239726810923705005528470900286986722310769566761546730915935052921077487008654227874939460748419697409481370248139418488028351652127979799840162658398010006427928214830167480877267802211413959166475516974228966213316597690273126561699944998589245731820164893691452359699254479026468078820963170221537307340434326898365793955777621311605489902257009840989436251486970065511253618759845133874092383376860502796244659917558849202429266762442946170417122039420578480790995321151066947420341289865108050606203430946299384069370859201063331119564972985886772078051158235394300887280671937907347832482326372989810880280031582421403074235378736007776476178127100690469903348679759306148513877792147607596039579167629660029097815213414302042835554904710),
  (22, 17203366121300037005496501975716897735143544522380156215924177387597485821402439633716999820071712576093729963841635220529999994458389021957985532470091886035611157412110146629965347329809894267248202251311623167041380189589800010644662727998498473712008711218477796292347625001909210117239703713021667513927973465008262482992153438913158384314691945463901693192896257900691327081269870668902845009278862337084550415144741237237541901213730945122388817873973398763001705246892075692658522620233247039332059841980556961859894894488827199127464629094360655071613224666898775301725796147409833514979393297263653094267899259513002257502783802857572457414196187669500628957000738786782048177965633203152651832830210791072583091738517949742219825618191025837126669468891701529029493587672680089260842318912626451016842306663630081135179531532540828969760534863620911264056026868195635837799664185880246889915033984608541061249280765755400342235724395363049070844685043877085536785562590404319214357512648307392512076393432492030547281232707713684882319313950720410824107901164056342442137000542629295106764496356599246452936721712056392183392649490955594544),
  (23, 30559317070096244482932874795850059025138484615175002306615069738364747513942582521271837473986779664658402129449923863448767753268040120973532191970537992068539565700939616652938712709420385926813411427457114835251464305971530092024352744360832075726550321938969910496375323189940580504267324987057155800079106999953660314473195602447534240251686215343941572338197705184735090337079854552660311906616080501886646940723374237544331633929630696723872388059797019886134272421003413124584610302789940137844429474301015389050358748496123777811893975859384241283186873582386036753119305517312076633242197225869921534958655919416373703213085432934040750197615716039661279685063412183125294138502254986912785017463696951605479816298516234114436189219860067706017926885189416099615038315466469655676387137902251883746149883512458869582730113868735901938275922264005169213838823753361834920990755274329077606607371387473774768820682407543161203465930173640766689803933173720398150850973224549330826224574521084720136927791832820356568257211895363401664484912403061306102420842864265393488502221761831277501998954217390844175454737140197994644374),
  (24, 54284251884830994411045093117533081828656346523668342638123355860645623593976349185913147725961426782972738358531639295615094704135970929064978582639109688967466837362496097291209803195914315431670042060008058449468356669798208914454387351742843887630447619417033076400199955596809044918895772631668236403167053163928975379439131518361730434615767242305554794955340074343856572273305665841041561855202146901962703077990890577714114568244044570901786294478020109377066323863334821231227565521555436750124987857960914913780186671002359004771145649047150558447460436383504079566595722832729673742503480177240402494359682433043738128867412003567227610392329657261839175942032552752086908153814468090402892159099215342100872738629760464325656528930750959734055861558124521972615156417344771342425755855305554529920716296202204355792553806835488767084645227477877732672970664104621470291075786684313188456434643130082497263129291242771456328630054206679024622944608929394660083103656062437698799396429658314813171122409508484345276670066124057999528154793606001227769744532850609992834610802629014893731365298089278262205721268),
  (25, 96428202107408166790876443819919672408769081051991204819031875635989787648331356601107581237552024046683317033355958284024030782817184455197810234585638713763525552070393066942495628425644030764974223865891752249204743340835448513646161296540256090275692212372277359286755272311718558784873339752595614429693385336276167162068009068130194857045882861189477130865652264301263556244144335176846239394656628380611337255657516674465472886553633263994717940664742851403309896395540908038479339897058537685574108501253380419837730162100472229461324553113220859745334738093638620666674477669996167904039155757444012108893215891327709208064767475284217123566075169602782476476009940491178285499311924956328834312828718927659691475840391256401947422083563650041312771326775129006949210966363956871793007332208046612307727587299919796069210302494595891630860033775559891087097294902147971510192270034682703033478161733637403425291723295076708539171138456359801159130236087714651231820045485229773721610104603349302232206947151494143003292490555978693524421800042690066669324285438191883028821408321013527804089904380),
  (26, 171290896324576313295170540081418361158680487211564274178825998629418451868721091896929214737163508248651141021668681498389012331405852857650160015659940569605683405796237329352126105551847210938621190883850647125323738266810170665158033697954698844258721750535298113241187119269027462851345811938868482352890504744513328096345133752047772796820394740248919224360738528741812899371664335288264996906929784696586414784204353800175272742777928673253353851185173354163043050774718499533054168606623755401457574833585016719262839080440448581783173886412872081519311228184064741726999125346725591635786452601062406541722849517760479664076766634321116463077867940997002568609847689186754556141556870934854897994250145653194846948576349833122127499439308113058385912465195408828420237949804340949403869256848720169112422813795006286827952769072176404197398781993693769769821512788898382107378437986510011672702355473776777200468032482105822213916553506702518322215716605136225431284256861155542912408219527145993138436446979223190188801516220568162453526621397052665696035897482735560162386067910034),
  (27, 304273755213138738797628261340631195738279565569515200985239320767204134605269465904389892573690656057230399164545171320730322090706731955256408688611625875000202522602537857227314390891459821096678481906679608584361063638645759378358066145386899574195915685093044086586741489444972824931560808498843879322655386913923728813187177847050475784882737487188372044802385732007547487391015191253936336327522548007542844997508829147741789555433401343185799085067980639849161804400382345719622903558866952775755654170755778665105039803276207046298885268316514916504800523079113524598307912576568754159889370501742934406515051814305603642122105059121641035335460339705299853465773906798824674198917301815905769609448110425002738897914727412891318012064782748789693868078905559982439330854871684590276564438189489721827331823376425928220883585996797159608044276976719917939803598709657545131142232894164874642788570346575847363674252969937329184916470090065185429023071163852765626228316768464229551636886119257644565626158909111926501675888881196893041019596962484168490605032102970500),
  (28, 540498766122856613232322795675754881973559528484674517997323028153529792297638658065458337798969961889217797584453795324674592612369629505698756167394727495829354326153207132388525288822028926577118590585068477845143405262706950286549468286687258708687286546193403537699406973394660613794025925114210599491740317442588010394543729533182051547807851387262130823820016592986190928437647805858811392841524575649659696939948765758052901830918016476205580371983913043634471271068299938889270979304582178740794448496664980994013314368417589565801969788182840624332719876044930027202295502663126636138298011112617848167228016095197650341579734797115696311149628023044463595432333884999560682583906953056355017443137843022454009550329234543501742079435165641366724841698572067121675164847427736094175698050643200802089063394086228741212671739001914474691865421621535065281226017908871826991062499165053480240556852674948750802093820146412014739016311441406008279882729051392583443807399873153459784831697225063694568425924437914595330486362712552573437572841420276053644),
  (29, 960118679889732741430071164635782000782099745341972237592013702778991774237761412596269932227676806850878576873245914728676595641082235790039975567052851204801103578110589055941260994280654968208196717361687124366329771018623807306875563081062595956909837214417945385745858837621332475480183696920188726756593284676043762961645578972018742797409170684043779329508225398995454607196429573001733662602294676712875397543027319920235721401355248115658397652461871807182178762179654064073762602989988187500483767185161616728794041461882528443053333778819153642876488902461777318076043563577689907561670524001491340388085192968051446234365820761301778289267359306944509655479713900684025512223278088597613559689807012886757409197551271815970926498435222155524399776630694378383752138807797918419964865953540433995946917556689761530294152061633821919157234718415252354948701720600019791221373662725625587205795333590660757130029008676323773115129730078628744900134948969669553699878025843591830990001614434092369728336469881313352267580896167535606182692),
  (30, 1705513383328142989280898927994125601829155948705882260849768377394805870015874485520617457338444796750184524950879548248730886635717147956554699343605594291437447875938181584696220784362533674727045953707272225899821565332540334200781149336575801543271506255070791055270908189193545868066817856268874180342170143076746790180262866116711085551974766870433651432177478842802213243902355076728198992910417823759351113907762492397725215218706327081283395137310032031538854689583959031094541987813906620578164259475323966238017523816410251741210776096322457802340947575074848083287517025057531907772656883065776697156872679479908898313773432090797845450819471075572250957985359439324592315464670376417725203946329797938093714696223891321632439397422048912860825138929580574398095854047646000172041705593159548757427742205577289478266931278634403506155165614963245133296516756630424134843443196962072578185684028427307729578358795592588319882456490632776055942695622448854201523671206606993120471166199480648025671000434459806278052994262),
  (31, 3029600362457546013597334177275201888162524752661570144877285477581024890166619380082399130999758752823756420703510316018040036361728652033384075534013516437010744840970535523037366122019806141868800406288922347823963438158185620242876043315738698998376667131766307606335779136384082235095093953505484237708239281538709482900899507810935066266037691268312292810606668307083809649697456275548511240516172621932354915656825678642466558240591390399897265447560253479052289219697656462403323451214724971073288955397516553255806137476349904885391778889937206045831611096696583539026354370704847125336908770233729678239031381467612608226748281552321216802570405121549032769329472153689591365852992023619379204220287578709640623365484632953482639974298509989095852914871701754307686155988105949495101091954710495801253288323947773751613140758157018414967321653731764792202938672479103498832687720086858880972384890654922466692550023733155712174154705534277983903115429815498330238972012189979437454088736155733744172060937854),
  (32, 5381651326796212469109635334018548589981355357073208287222391281420361104955987347371506962652128232510788226469040565174645621251386608061396953153391624439054221252094683835597117240286931372133602576643786175647630046291706696613194044863752120307677914678669345937763971226352075185460786148100716005032519026122056882845749846723259184730536206727356192069344809383056764117097160768513259259766155949458770031654574002643526749408980335853357211733113655772635708084410476027724707918016223863324599735348282127439923718204647056396752646921688056185062999014614672035938253634826948683508718060599873962623405831900295826029589260413988331729637186756320313146260026903693712052289354609114998379578672812116504769072886708637145379150343224442572692517998171074541178736923331566575918210047189424676283608431124681073410015679263278516777244728308833849594447051496012247936627854819267169683454033470502877059927746521800990393209379398940078884955746765081031528958596064911477271393440015792),
  (33, 9559733142644951712369636589443630314902609939355100157726906718604862794411455454925982281509348896856370669330508300589592083224874175793755084271388567651445578258416690508076180123179906913233288729331650939198119330329029723761881922253245764379161960733219216595924241179122276732559422684966300007565905673358192320281940017858900068723080805218128368075408583542802069790652343272839903344119761495160413266350732352707728445215354198308863902381179580473888571944305363663668236745963051134647939341796574163952306989915168691247922179529512093473098555092957842384654057522719400608004358540832156593274461839952973900948079678649630281845439204942672072819694097795163016306455800519019136697557083832670321315231320151021220834743859675180390468884235125601689128246090796688040156034714141293829140851912464600506032793506884217994574718410112000373406789764653524759252452811087570002563163847172265800997333409568743672130435049387967976525010412946522930591335275260478420),
  (34, 16981497348961277579143067263937257457745341295206323217948844977426269911716804773228207427919326985985082099518330351572535567790161874055560748621335274362604583582982304986133868817521313865730877223947432015953178302762476603721246346858359868263390336763801912040641990336691754049683549925649702719762931482711264291720175698728322790163475896640006575931877613185767408614501560970575759563338864831085043517628252397593097446460161250326625076614944799051588731795861694228026597910764582625918993100643266821124941586337913302288800229573839523853991734574633150145011121566436246752378338353463326205220863550563151581407354202050931282829707359664005084717637415941121228697883151451100806208714581945997658974272974483427366536958884557798432984030880580215833822420681717942045255234275944436594760110644736359823047752977235046350674220072311875076010273870270441148549760869005731163302038894237531945410678534195491104693470923168508766929188980835533234595),
  (35, 30165198958718607383127121406654223998261900455932861333526888747595075434828694662516368060618690408507407042998700957879689549016067663105861740594515847046962395641890055989526278639711573252555281917967678686117348260729899573592513289580612387305388713447165970788803994766881922739032625427458584819411447044759281272763734499846819672495111054688308322294576657719718391493149359171338497010818477953942608330209276186787798537610655699550912015596475801379442222856048412885481426280099700622062951263752163057709057665109136282157001795238996383711529250689284588309620964352310309180826557812481723575714292943910074879624407491879839605854551602358654398034210275425739311594107719756891083863373263272075252041567882150892864167101690449077036210227689207682227118335726570994605807650389178127144710554766895930092653422129218283502057631236867423883945356027982456696360096112187443509779730673882289633824079136858672491458645196040411253752257),
  (36, 53584157482839222514909694166559563243678528109491336052381448273134176755897775972715606688674854672253139319731122910347841381960228451799321170613004604381132118129207165311524553770824179666159112245414112935752669059168206965350003187128226560432996949752873467843928765175974337174929791804173038285957700718299125150965272421324483391903571555711157432110791670545199603633942821804572308251790991217848017035649369440687582761840843532080613161287166075796977812915564306619118290140234434578767513708316387496951506986133893310140560347814708110345998205991891196518173005217800904723219236344367263886173797429615855138128231971318974883200452007387460727215862820994659635414996409252527165392771855081424645697885122050100421408692791654562358136454316579206365136998377473193170751433685387762686249588745762649068828834511465980356008323517482309784857387158725941840157139779738047095892907922203525483724094945657808966248029485),
  (37, 95184584628205474899507854780612906114514279014258137243171428025886905900315846896344048502081609257784555289803972322618014921942111267765097182885075877330763676721618487046702419824849333365380563138197753624041012973447849982856699197173835648747149255985832978762404311071793983232454994498795004091275266668145048261621788116218241723248793201191597237871364958310885566223827804301916410706884756519040605908806310877122379141872755606363004504845353377964977882617720483830947085048939446616593781220436845120138522791571841793376033553391262367064932511645563631721913307704291247537519545581820099663033302813983815219421763391955131550265915536798099701307351545799967849322414945201080297405365385735625354264446788946124344746600692976632985005702501288467753458068812879089766552813796805226534243195166050850954613939585978345501218783086747748395597262095943980040961662854643572422500583706836616734301146522957),
  (38, 169081787909671209717426874833406927074382214997528617210201649796791578471133822478937999631890944805877716167177071320965611065665705916551929931878071214153144665045176542518829537498322832515668389127413358290465723964979696516453143647387854755387557236389048166222622399032772950483469160150264805851626989207906754869208421004640238797015802659370732985471162027149754067135095804104534469338004972459274107012674530163334569158895346512845962823637125091096076640153176949988257329803126350431936301106735880582682912268700267090272284483358138835883938722081789324228179785696089630327235090287466233686314726384774078480136285332054423043941475574663064019710406321527500982630632403699363885040240794475700224490575428177571191342072187564452065455577222983953043444115309922214983874902681789907197992323560213055334918592747039269975024888515778038216594766811090853943396834360534795269473595107805898),
  (39, 300349590371360629465766611253179326365220101452411484333578109148210741463876589001358418493098405184582325375189789386701698709833553825082593083546935538208386858168135563672604367732919051917378166670006409620413434126333791981171084285930678581644162554778090896548579450631164885000126307842408477108588866213422443527483150894770659150516919567193945620734085651302162807619103638290208399645961478604899187548086937632485077389381728639029007973877934135007565718319716116637118328300552367636389520467950761678974818401625623875184112349327761317805339037754573606294375730031784290606062561278192245997178961493816428306279591424945894247524567647600211527518321251206637095370101405830523511582077475247271591164488782010165413382629781755131954798736595006988990214025624680911278503557771408928528827543402098083492118787237961703984253937696876164595723281712319020081426727103115354299),
  (40, 533528049040627111893629522825252616673830993026787711775578752593943896196588924914212604591848744938479232774417368043926049280577016142765342096029617258149638730875896654934407173453456204653086145025737684986183445601834242443509386957303053569652549451095762146866436882367952103208707960097917548248767862961654366966279413824763426400477156642544416068190128662956803230292020082660556264749708910223134423444744094651851226333017681146385049459368218593132235756484195319979019045175699544705929738346751149832622994466809128126749572467260661472996529953998610362045854220813262452608210255591052920198925232175078787613946604897546021430479350697351430251513583015373670191498557162321718867352250825025620002511402831461167615156464082615084062709830271943556976708128076774490966321810895889476030499711077948671926610248069587318061948277629115016402258130570399381996276),
  (41, 947736198982076270981361285607138599954552551221456080073909692692456749759397812232607692388998214471027073712432355453955589804844266358559922790858300593648456786650122239445287481719223571108749223699049490659043259398976246511549557421645733350715467835659940445808821386346907816845483183900723732488491355626131851441252911468488065828347749147455087491912425703124723364104380562911930040933987063845154684541190675943779647791702505086174699863108515966051015788130135886085176249869715397334323419548326591037128314145764090704977675286356379229171398752813383052982429440023642750171023432613839969318167233431083514358358269004688790495139123437651900542142908379462483610463428196860371632554199116341855694301358206247484060349451427004417671456387000957517493018982399857351798406222726149998940760219800118643252380447411209768103349050981628827047258194),
  (42, 1683517678988086141521189824555607556349261793105134219992164895993166662334717961086205453187419282594542005616536377207703474909948905029993143867119500018951206899156546820732595111633968559307082497112259483722412745510520529921366727818464871937968315041889209631096819649286484795429099698033214926961436642489345709867584736645142877092649720708078619411111446888788167607790287693206391201676571024003171798907444524738497541503163745957400806504490030079290487232133634377688847157479477191030683260157487839521810225549433197168876049136270896438218639462002186134905889318798643646474076154714753460129215072748431920034624597369957833260003852932127333822849839454891304895098089953191126121608183340246813891914759734066852614652441459057906596195349648229706256038236616632851944745262290774910039668134658121330634909447319634877519407650502),
  (43, 2990528143328564322036195137485655825305110434878879480754098643709947137800655436732084131235839389474141430398200501402243447996804662261066324052709551399821393100129123500729503981972201987198991130603884474145360171661949275811485751150582675394266973948330607882239204999622903747308243919545617578631268811995478723452352453494476241642262281365796623733210654856133062173843255506064911418411794502535998201631199577699327012472127920117316071801879799209909958156578335358638066123549023147294851060558659357482942775533234968355475107849305864673586462247081862126313268890377414835195414497779001188954872980193603549101246677990448392857902332829650515673646492901456774935861681489394344923277395713966609878675066210882269014920508812662360901667775664666830118155855335958375196446295079041885527310060953415500313562172626035),
  (44, 5312245120822722626835274643560413512757256100204186111884918614917284066400866051878232001338927409605289388806690883265392003909650559477807310397819118625069225688771664500763541496099247108045164133657375244154886156698094122408420217206916157436270805622760556098326460160284593049313835009837774984414819970877037586466242728162983742311870808441177829918477866689394146458704905726113892853570253926021929578537118833265905868232662210095787903914131957061081292265057415831098141720456960919417216307983449548502021568029715725085658850298974721951017468612055691573783732733476552595446346560792137411359664579899088719580331613358098308279579440358444952921111544059180918572178007512822306573069614254977925602814414290326889368788666450386188095703721964583142416981267759966029671425837243857958673258099217290623),
  (45, 9436442952940331950095259638643723399529811639794913674527527666800748867436301028348972985280476621583739526413094132811651930697445736188281918702580906603486463843366044676468801727495415289721125821722232467139896147782136689837509253632037441550023326599931618140530771551380319988146843499503127412381051766996281235676213349319650765316310510700097133395000730552668123796058812134788969777895660413690462965587341482722220564776920981787577474017356981413624373862377826874142426054398123050418026075903510214241279609564411245988297158902822534831521966925166656442224976549485969733083203486824359420870591381046759906421984165108141088051032075090932145855521053630957351282335744280498379556672381788168381160043443376851592240172790861845585140100248595936009437236711650611389821037871960664771279),
  (46, 16762489979066271361594016582455933459080039073768571489182686661185168792530070579035822759278587013614703407197509141372142902023158395552951694017336972138579201757660230330097942265472782552182567685026391870958756124768919876190927830601510045799415239667612484117882390007999060170110770836007185194761075925759344722185564724293962649490356899447183398644452213878155812957330727059799102667486377444813516709152896328567047603421495326897528632300445830623235403261261544698813284463982621435507021215730964422486522347300915413764390618367182910929015430445380332592334669678908656461596439814783630571744356424574943363371075725651921137320094620587491343494523282201111980833220783579650112779026487854326929221357747309340239603682032946890652918088633138514070756918281194614630082235),
  (47, 29776163719691791867386749178532833563856113852534421132927501394916540033430636306375592390230181391446583314367099370740600269821255538146824899131165621562948037018566124262121809294480618384125562714537798621792284314853949072419639867759155459395388916138607815816433520593096144507644846581800127114518785823277025877274708013572347841346779511908512709174512351217732110004037546642710703652941172587829535533084558191345728289761570064853675512489842862712005211531409912464863115451953829617773973810668162959044223271911357037310480810102648688183811790146696529170244149242220767216220304489033139126971489370044134888861223508722823275835413385959367704801202611619209630910956028799492959186979746118472450053903443924621280687952116521034189031342274182207844755300207),
  (48, 52893092074576492648949694843850525041804393095725025151530687827787668054943336817729739895006441558319427338848130342514651438081489702362109452443116305560608554297949845092495908924456639360581487638778984777195984867989455605642289907372018826550214178319387343854982305709888289054252898543976227427173281439178351758450419685841902626047979925556481775392902047063306289244840480334459421437920775489412434061070560968861192480264438969514643148027782949180441601127524377240011985347791748278225142545860623502752827087215030193699703237849851259158590939933732457345413590039513594219917332300314434654941672209540567998929332581316347469631469181288537423360761527232891273937791697293808601103261097566755145782959938059586641068682199807279619561132595686),
  (49, 93957005863700467822010580296859746026757177975542076303524064160358115578801625873105410251006245809010255838038450074345198224335850996032844394077035431863441179933633155045186098014424621110792911836007455546551018232373796340358690571008457368306850644170553851760976911058694232990206637920423173448270501673778144569076256640126803108061104365427438053352633597499242733060290447021820644697190729887173437200363312494880699490829027594828757786299941835195474113541409040685113273697532871569201595170518037025273480902274492759040434469563083650811231315229729632200733858624000791161389996732723302466280159570760654252282733569682510285643207139008262398407477339519008571742497578389307573860693465666701973367933976686411555467405119930991),
  (50, 166901169981705640841701868894351764615536759440330853732091614554629033184537682603507124265779228165349440803626733353945434495174607006538293404393278024651258980808049352373370889992357956247684087836125473332524438651591610129992158432851188363331333166517990656126190111172173096028913002864116008554591925592128396916775902820131015469242721414391332477157284962696649178012025392540385121480496669294485715486140410015040348578675867879287632730533999535754821262563612775416611934274771914959271281497778861922453782191028949225044222172634899882187609134995311897691479677283271064791269250896422821355283904458663432996701151501746550866006285860289425383835374571127182505049452368338413182753709974096426122028620749500254347),
  (51, 296476034800447354448076369304735438912475090551373434318167198587308052324320508372070566610245421495672986796244109742002081372222570147510399198684689894791772998542956766554231058201587530174634726207283046430512084398139055320100579674384253707600403243629391430386942632388752038032055745063349198535615852481263536782640416590562392256667961689103611672327842892040551559663835195292597014057734838233660399640551517936769904334711367181850954258398715860456331310749175607753648350666138598953204484881963459821246645500232594815736392716424039307209459520081843265144130000485247359812541284436368828246613516897512629911732128053614702226196948271018400542918656393574411795674623079276601230045869831400511875148),
  (52, 526647232117445193409902890704703878998827979618314219063959340772189920904297589821085264277360166063976618117417830937357073871039967921563430040812989786401815770414739575955919073094815492266426728689703070515876601558887423594287145951669931797381830441710865195195005242091289574639704586350791489259510188503976750703104292426776047636233105203052892965538873950296021434235950970619859048702100194614349799663442375295126526760403981755703344328140577639427558090107219329107807527014791682007359141444771628641381845787007039633583876141221697915390089699075938362190499196976895559751126931510760785409382684755157438809312068111506863333153012576065570439776588091014967810453394369117083079130820),
  (53, 935513412711242847012052419399466998990248795502600678758630541135657484497122874756094441381970613872871077485430719307947923426653063996251600375060207236342582675558858478028287451802787486748781424666320133595577471331868140838688489394152751972529150506221638185995142068701489228696207950443449126773313487284373605714247183692546515728538770586236049020177720847400014643056418947142095497622329603204891508133059910731463644520127089469673224900977623506383600110717741919852650424580396029385529553569746539890717664285467865747858038971272279344130999250691320373919082510652848700035865193223427679379423640132583066971193362071488174546805187147770308628546681414047521432649101718),
  (54, 1661805649041232548586409096164901484723494643954909953368178379462888316449883012294065059152317832835931467855745864473184109640966366500714965781174326711188761163884211506186236404614232680831751928404098383540083390162268111149605924082370082972656373098268652583125847601243957487626146203803926476550463943567786105929579904770706262288268264610760480232495908901703510725948512995103040193438850205113329771752403038669720688055457626878651772732537727019745860145216740479698289928961864921158609765344572167009802539563457644513710180769567014647285431543345745342781998525027225118182318722385402834676205484065369715058426389380453720663131081803071389847889259040469),
  (55, 2951959830431868528238821697811133946268535654934914482881238939219679533713850054668354323502223046623079494707524649578531557495467787173661731760383451295527742431652727644283527364948316943248688536936427810969876217716651637434265434777358478167922742842436499648826891722287359770281879622799333951528100878555519354175642542082767807353243759342277098109896943614535162487507310911408027232045056981874570404667189981471389748890865639592756938640479972012078851498425830749783930985579155985726832341997939102414460514408490860929531574460384862857241188997766949987324758255188378953712449507461760920275385436612510668257360071495882211624029829461890446),
  (56, 5243734034416231029325373323689861134506628524808761096609730473131531028635309432358180177779227562085828243186985141832752616470494870219720455518865248542551046072424767708462799249515321188297382941800130225982523643193887044359078027520393077167188430230870883588619559407771761545572356055443401325778704192718966320878199702117921915702417395809844679498428918555368755185613770717713277673881030961320699960687224257365957594462253032398722339661195346462743649270690598091441116239358629678683493039151910250704135504937070315743836620821308287908608148480945564354587202341030811598907518869938869027832192077885953604803625607812200243915),
  (57, 9314742816030544678412177367535730934287684561450850995308477822833974966046535410872178969799033214745996658324030371805972817279734941996483630849881342577261359627350082146110242899858720497914175366752273886446060227282050037213170548343957920958096170722849999439935808962917092820729301771766063428728594732638337128274012589483861459705106012276158035668237545894020659026851668155829686825625346758105333841563810226792337870437107286758547184464726734695608716944949618661211393927908416802842497102852456002797173338214473882258347561677389952789623782145358082150029228888637178856129239611931727508908512449850888670596912),
  (58, 16546307108511265136179102329169989891352011249099255654019654871460009467146438338757465774560691440635650451295793646488386941145846840400139769073789599012509341741622836727743151915667366116057003823381341118391680344067266623055707724078765976884253121223643508484770293975824015379765758779336283274547083936735151407062514438578108487998951488765364157015707633036126249065888710404589806651948358447349967455873086047291471555789033514882371801005326150429412387127821112756338253931602929010766366884086060204437029618378474660779669048708773533851735894087958681595592764553337308730923015913893889125435745507),
  (59, 29398331879561326990632658691457257000623256409694179843764105383843919463831731989930548048927895557384501609041226560484814608126554956454014557511114005830739149312621134119882190381499165825037038857960662339448804882213997911974967949280872633758280201927794351470045758930680115477482326271652658744639715022643911494979909500750063534125245797155570120422529678146565393057155962122948815438172485096957352220332362726454425636124456296752165329401503688555524312263752546915655394980447627956329875162751509885989285297399762276333169959728032155239171500443958016666039810667872914010370823509728),
  (60, 52210939290156043408624959470235394412749440352194333648828673061264411788926869118327288704869634111992567471926035347713870374940025183111451696425909201878750169901419762607025730334190410645113001376077679339805654528213358412704724331065093638995578147605189701363695678422093381172242615821926997555981731110199382106526154239022887701529085394421618691333160761965496019314989025240089070368688279221748259575683938341695389860593765040737652960000806934988206602388369332384467850275045554370607462279253479698102095808603482311550867189228636992029563052895308623511966622482422237),
  (61, 92745258904614716215290284843862336127199191716139626569657003108982181327130600280772816550041984706949181924615969082755040523405211995907316360408948746542460932698106471247441816760686903940691775253371880510926033354136014835443365078131590622885819939919331315126644664880523709998647347794359204059623919015133706911930934338631403121582641536792926020355810136584587102574765705207427297067270447819971984678252560528736422847070876431781315022150368339859070535814366324576943807090780154259515713453597989408920820657248808259117646918363852100684377295996105712750),
  (62, 164748674973326171178592863583274261004164621199022565568558783155478895559981646444916234823806358360221755264000589094043206242286178085744968946905313531113270255564303650871568465615465118591326413901575076899293338136706268286884513884539428429452258319785873698350784672823628967452798838787596307636715266894553527618102121239603653238142188491433754627461997801592967544341496126862517032107316133205512515755441644472093126457979842113110182000190495542540986000038002911994047695752201970708849307131554364203755249647930128267711870016924292306535106),
  (63, 292652435770287453299362120618614900777288858954148717286278347070350748744680376534306229458838889252863049051448623925197146739462269690299412279477169636003471376907901991608479665154526523076417996247252838010065983259673132569500780306028491236584950414577273197927251179677225692153369053984436520226670579039189464580354871047922714043488632318005975590642089652279309085709898451125415685932842614017837606252022000143868770190211687431150823679944921765570322774475192476953114409520978971122260895270535797345704646107911929833961223859),
  (64, 519855155880561841493317228587891817329118031052618964335467625865562125845514286014625468584494739329397458204540834665176694668616492405979794841764906577000496348713233439913442929109472411559566260879491895329209180949170501852797159823928194519656392892628217769126744589888981826671023617854307276371025252152014939345315320905447519023274676346247875811486530735434387211225122481529858083568336437475308125046565673380034129213864851426643753028210256032179415604168713738564774321521345243345245031656451670251754968972780),
  (65, 923448261587531902830422948955832376813781988240827767824116656252505592637869839264443501338620898883072415796848519475685372495939057045774466786772920771571393816699416270824139613820005296505825956515863485458936377018219174964213878265788626288960978072391096566262702389089691839940810092442189258043497050581501712411970938956480647722194913291260666833317983544601571590655675989522159337602968376572000426283806483293742793126152930268600013902777372008915477337781177111461867552765972866131898204174366442),
  (66, 1640373611802355926153892616188278636512449244904029567514690493249124236524447986041115862801413996688748749558189704594648580032639343041524507055158789249890411336173442821689208866492937464781156879262989960101377229744487638326962451232872832267358385327859586955989192116683213542392004580032784956718511631235469183231086859690396552846407241717949973311006463875386424060772185912292042616838029238712976051129926830802620163647294155030399398762626683022295397589494800462409345030741492013511),
  (67, 2913888926242840484327557994274972217232220128877451086096467329694581087012559148754713178563113420737848691870013139397655136193997154549157599147006170828565643989333808200922799229186097074033026168733215760686741359684158761334776940275342213312549579263639146413967461342148438453613654980410358494857467837483746455478211062417819490399687211389243764711574065328220840851513323938963684864056374054782355194609042173183628622748863932222581807751493422824608460908544315459451840),
  (68, 5176109844795730927288508049653840311775926537014841520808426988818402727673842014938121403925681682634255783847003012663599009627152137300481452896099151383118833297051642604839564946651219738586941883001371424700588192258869620595527964299700480893436346103786772839839027830333760256364468780661214289959440921051326337658469438549699232131788880949640630212806147102847446600915150142614633579148517360215327977317991139670770783691105812031427409359979082094698625271),
  (69, 9194612224277636986368476444516512302953251189938102087645054750022848223056400436493214942375826791613378960105427465284863823384343372247604296292803560133098248120692480463637770032854965830802473085853722912750148791577894702399949998056953499783521019545784349541749294630525622047515214708856585516823246835831024202806107217994708796456890639369617503534114793407279372548318748458572303641469690889705111337715173161656837601454538496515444509058966),
  (70, 16332920462880731040671525689560518579379534794287575456861067055453827067964747326491924010670815741573192212820394854071941193013922166932367872352037617995167972288847565553299870794723431923766334540173590142052098915260694509511092457943018640583028621352491741577860662520465279296370809321029205832570366117529062656171791049146809179835297309190845646587845516184233127566242930086577871588608197624793269532760947974880149085523044954),
  (71, 29013087278625082415900150266244899244561914623142754704273312963028987994777746282930154671569656280287648480447985350620545097950347267165559069256388650211595779310418158622710671053750756563929428632705006005943942922499322697527243005702498191793170259789009481533627701073017097520117947002607393907461411113577622059218512553758430242101300701340296317996722009436817773707484529458844368972522608399809586766950425215942),
  (72, 51537583959769772918415090507482187891839327923733810260513161286863879600163575125548697866077686722604029718703282804947686791679130383772018361938233004841794781442770900905134897889567444721321628286575576436159556009218388866700197934589308314197474487414644303437296362998595222054858029928800142796528785403752019214404622013298841100218905987982955049781516909203416411435642940284473778994249733052858374),
  (73, 91549504787676910072177916485906886084322397871153485489756455617037781246895234625647616041909526548312787940381865160830880033671609936156239196084563777872520831858373263733971735067178808845056630881647067887278166645620662381573746344832846214353401666478532598355399260254855104679380291862153122675278411554606779886729116826748216537312661860668950606234269056994138687705706974894060241254),
  (74, 162623940541631524552191890801705175063766948718260083487247581019739428034485175450170169482620692106333678356019553172853290580107170786255864840971482817068700456639801866818166339894964884661684730448194629572472231538171187406283356820714647227576624401130130785777353004708602885860210868549828479791821424649615162558174143457846064797935232189840634336154773977129209240076126),
  (75, 288891573024175011955447493385018300010066971040119940078333754355852723313986073700644511461867706132396849776870408850173497587993709205561455244155294194574317054988953150134891686715181554198321072440096588536273064306857105157264891857260364921660373733145322437115727631471103261465124519794476016750052790529814321191681700179593294994490240682564482660743656116),
  (76, 513150675785117781678950406439100153961781380958871251729059520153777908149108864886736252722885667502952488558756828943170508755465283633814277736624075340699002637025616481004162211625402183104243403472890797459242257761482677555022298348961349161935813391594853498232289212103358312884399801754297399123231040355531775166410222663863646604186934701189),
  (77, 911878431300990015120139454638081005205220271218964322004643179388677469313539484198817199986563649530999780852370060107996355308843625309455513601565436153059059589779076763932896957191961947303345355047475613346355238784560034451349166069643791155875340932122211140454588153809198047080560605448733586719430792691501286339940480712161324),
  (78, 1619218026458487820792162031660392309073964559657257193695353889289335915171985346779607100858336325206990953712173959865545652499032927498685614532350752457944816082519871380882612661700060419019724909273448533485347838511637966866429089364068519192683931173533775817096952402980523412780583018708027643633633683465170383885),
  (79, 2874019321423001200693711331601027259057949041884883702360519852165452472064229225812619341932992796763397365604868616071823203602138225539895610960511424868850755721465492241347269627747697661386267500133970771369872170681479237311312266089546736296977174001051742162833686972276151630372916779377212365261427),
  (80, 5109351211693805694249272137402736958388817999211797719006272171277888600005357068641210748109410657527114234207122092393155378314276229126570749258639371146348560000874838832729943809046106341226819934192277542173016099709534291276579457090422574391056190783067406392985050357644400138390475722),
  (81, 9076030920726087184326747720572023449136982922783854032574015588637348860618409186772397298655790096283548778861659692745102264170180830816795317225786708812692176702568951457386097689998033980295383419386123226904690032672301130806915313029898103539675225038829140290280484989432),
  (82, 16122269318663007761970990147970917745039980327100677587869069498863298416311648711634988452298711557317100417841664248504209136676793262079921030319023532531799610036436195984693992629136068529180433931233478392953792432253506489336477214816524548200097463864259256),
  (83, 28638903918475012077328752472752491573486581815205045308280675950560613376541396535443704794081407806814339589458723742153699303754607763150041722382912777819926638810356776402686682965594939897213052639053677333978920285052576516161125932841798276477),
  (84, 50872910762592340403918964757116680276300235450049985080058414614195839389530724329916605023412675983363451088105255048144275204370476827732848514875253461559720298804913250688991486884467467492656339256279253099414678717040549585230877),
  (85, 90368446678663120429160093627841089127052599366821141364003858571137849324305779671491954708322361492386340306458153118467299362039767606942930725355706878089254641317449876101521061323267696167543410911855678126657609417),
  (86, 160526737374945932144789023334178441560370743969868590434941598494793161903522643761031741079902845274345953947285611109725763346989879973367605441260671693360541973830633668754576159527425735887441782338232),
  (87, 285152538601387707696535625051446703579886019095344570326953751609388018121157918430759384663700756117699196702297359589324426278803661970743436074765998508362050087049082126671029544859079894),
  (88, 506531673793378864973835426966257515586891568594544052004896192182453571629329144254667838734028416770361537944890629533789236235630688579795402080334878372246643553699355143413),
  (89, 899782758908640874898439499958456467171608366269866194423813354102593746666731613219439347971734925580927175271399749816640225157449744069605667205571876644824981),
  (90, 1598336954899900645748944332776747847032496467152092946468788048371799421196162188071553808059194690652602268976362488410352928917466853015960256344),
  (91, 2839214107370580325992626898401919450781925298170294440887760386185619651403885053207162508766363823031786265471893365514192755465191),
  (92, 5043456793138520218897751294763177539553346932543589069839042961697315260546099124998838737728055342361315361508879075),
  (93, 8959060630994488843849702324457900875346011434468982497236220604614909860096062662761147852852085510479),
  (94, 15914343565112691957340407650414714092385980484582801332917967604272781258081637788300454),
  (95, 28275320007461333146704733311894198830592318172427106752642359630634111709),
  (96, 50216813883093892010635004974318671518443280260675350890756),
  (97, 89110721085621049570615878023171658405123261),
  (98, 158456325028528957036995413838),
  (99, 281797099408327)], [
  (0, 55712001078482199529761445485449657278787240862939519096126217879832836646582515407498883954916045943090872364241953440932018733228582978973295848079902971372849348478070555562511167951903582976776471493674610840111903301022671919510916420167271095697489293806548747640514213202582843277842964509651489912744602631964151152848181552786014284161235594239622241159140836081749350000728813257359812020090911411477377057738241219723216888490565030028147198176261020009504214961444164434731327555937763481256106100353976287712114401594925128652055084166615987118512291932426444091057146520403527176369014497578018947442436841269682628955595991276032235400547765238296805840659860124972267482011818943436907912331883611563348398400248521763851049800947074316244401919570009951154394033593865925046881808633603637442303543160021387279599318380755994648959078179360978959564064303809995869596005984211888081046086290852715776339063002633657761685734216293069805775580705034578512690959451915159955976948987216307241036575963014944086875859576160204212189548708715234777084027877544411371452073366815347831458912964605883829373849429972217134719176928927606364177362975652340949412895209277026111436722297110425769632917410644925006148293966676392036103560493435603806025040424240378633227361630707386784910688628623453495187909243669473131901014085764878713663375201147087847985132410807822389869576483776234940767864383230561662888080275596821301086038063322138392468155466403282944),
  (0, 55712001078417278887197522908688778418180931588760307852822874666892850593461503644360032196771319706695315399257577575129120498511751259814712795327485978608578239986739295104602563930160263526144296660151586918189664436774380830197670233486190304478618555287464997399507155495662282498531945145757724278621424191734873385747854939290347516513561839698861408256861241669849539106582598906112569620887890641059125302915573505829215350512388380671903349411079457155034419074829467633595259769395715025757104689762963255858659108103742326250715582943494079014390324254536751476136148983054484405459404735133444256173012989008298943066553116466619886866322664834678486544373118816654752236116665325799216495893216553268580428599027938867866496428734470784035444035928505740296699035676575491253887558246651078516421299038419141928850542418843539868249573321968004732133709440276677931617507074236915557643459465463454394517590484815212543261208763877379490076502980574261161494310664052647855048575263002256806423350288032653498410235050641103562345817201069042202220045999502322021382864665678946474868467272980266158818950638414589707145246096478178390622611223790063808963691061408398523617031163744499298140235497949501158556686298986625454436199802586250921797770235358832396755090863006601340817827325218686033247569506023235378642513845660317177222526194960980177903989998552306287066705305947613414060546643337386899414944449729004454177157757680263392377736434623889457),
  (0, 55712001078533265157144042856829755210271025295305804957753615711145956974413621386288313876711206994956048242174292556052546738073551095258559299875255611042411182471781585080497499674429040209573921058921354335721168106252364190699842239342513791900245764914436050563914896256617436238760225883469572053746338556170316359844835421220489194277192164692897214899104732561195117604807542695444655148117476951210531573281801462080616287118211434639307695615572158804472660558290323579565027070118287039109926032053673679848547559358492004981910233704479733854576321318389720577778810596276419032470183145906850954686788629254214335291344172562094667646683710133511638324252250685590890302884297231348972419888836295525764956525084837205748265045676494129514685818106379927327131020753473261575544465856420317917505953045287048812109332151673479460943768559369494423852688984042452242824031362638235608928512197168760243561591500794204274641332916166003902811610213939835811565992244383993543914619199113910180415080121309576726032251299008395261972620533993149504704604527189648892600244900071776929067703067222722359624365112061668457409263501918833693507552624249271501923652073879617924383792149818867807712116278796835446614546559323241735211628260631438739534496752270408448774297492678247428209306201786705748391150273359232611918392066726588079609327183438801297068980079594815653540989366824360783599298584545380451675093863917600430217750213450407524837574421589051497),
  (0, 55712001081180562700718615888646847588497203880042950238458314073678378051339618889885223185998624115737932233447639178860981265289438240241071252909411109438458928423898921920274261368146108060099350338382471066903220602192632072119616524432869110564778828714782708008939493246015310896669924259168723170584596619292088025192267437696138319986216691282061070441803668584230200527369446416210272715821332339767868035255630915002479988960857918069081961006500233397249123702028698313167164915578000297781539871224826035342199606789840624363202136444418047729509045597985242305910458400359813720506453732326330393745065731490608679674485416254045465151187095493899900938454110481002753663407492554230655533176862980542604368650923290413531789798335750797701222328228845832503386380119507813312213960243912598241766525979373274559819806952297761428454435353148953000032124518244911478865647712379646299942708958400652393112833776768052464916368875754697365223764465143585997036173902626699856588339830353971176844820887935226173534972160105297339768802883124634124776421401341684789891958332167823911940716310876260551327249144982895882521107360335917816200256857766943272257536374801140470603958588047812746248518176592866764987285409216747539745144023327087039777041950255457059174385311707255559234108898746963678666212438752087448623134053167836593019552814414961814996930482321313170206207976575778933908411079532596963237651227137556692540053416401442998315341606946918658)]⟩

theorem ssssLow5_ok : ssssPlate.lowOk (78642516133 / 200000000) 4357049400000000 ⟨37180115858359600, 15939377645640400, 37052486930359600, 95721696000000, 95721696000000, 65262831458361600, -1713246638658889851, 0, 0⟩ ssssLow5 4 = true := by decide +kernel

def ssssVec5 : List ℕ := [
  1214894929153530699042385802270394247380007609340324085901356184637232534512100769120846304241830247279188769863894142194972047206602502189011085990194454576932151719438115188854676523631941338261059675853076532303460217832793653437318437031832429802055002357845983714035819513320283826481361077758264107719711246242519275968863437230890060414846083905250630516925224963972209571647281696374571707360391911128475274048985607676452256208997848202022757103945631596367790886440094477678602915964521953856369528134529122977517825966415200461016025370335133592903723786276971225178308540150074492423940574948599454434992238048852887389610015526820353950525683922006435210924553858881131524772397250194810983977224845816341056400030837061562565461546035841615047483539279333112383155918111837560584914528745188857831287960300773353872049113244516453655188896580426537618573915667391484741937266797551978565449132275747112765979007258424341964596670317721119051062883081087260579330591985863074549110422058120984350987993330442180868722917955018129990065764918860179883060636015430681046897139473263891003349570829138250509112913442544850482227858749846730323788322973522746673750506906692700152665783767727792639958013546475878941183679931773163665028526359370105734913982075472243254024212255804170978089166562288135153369397454378195227767550376558934343575037468711597511836265987261555110097880469686042088541799306604713004358508295481974378474336200020171767832874705754245648424997139623813478207835542859047562102535926193671969402473606334619872742356790424216289218897556535867726449896794772532569098703738627105711659432859551843322573933809330813939785655700285899068373831539089622942824493496494886015020718158411001353143018424093688483033667059285356076072619384865135055237369404493856842293158379965376205322409398595170409196149122720488321758296637666,
  1216026728785785340324029600314431174207907639617716803154035061722455551760836177494612623586670663387943760382834936861825795496477841276652798389634004362556226691652043243609226308152259542736905768311204179839123305523459421337734092513498436025618274286736541326608588859002373234950079544327748151307800083221353424962307008753169972352165801017008712174073213785499616274391378633342594618556153020211100377913434506471967707826542163041915566273399540796760649950856329875427223700136523709701291216775831321944700007672330409906574350811610519056056529065634994957670094769124826511060048927634361239838054278790655925049868198934123307338520410542432391603973540283457406959947557177154639640069379901173739911011959599809819445699689545344840711951223530315272106019091209844866686785931142838326560730722991537304300279008423214312550718856675919055685739972727667325122021758161948347647660918287581919123071363521724675498591116276940294627929135400863569350277496349290685511311339573723000163363291907967453433903526011457415253185410102377267119378714387327343092977707298347051631509589079301663024917523993213763132577080743114253018351790886929831530178762296761844735995856559979134959329534012984078295643712776652755534815937110172371671473973462814544566595609383317427120390379214409768187536456829861880874920472501586518288106135647722191535320487075383915274004384274524640059541402297590655909567688786784499783482438297165392855639469851406615292284926187741609241785562216610240566201013271474082022752748227035105782892181746034531386940118721561962789340809342901910057680412410513505633157899283650437234679615750914529196137210601546643632482912869017259462617116383860964785823620929148476052167621847197938218966795717136150967960806481794168077716421367939529573294800077458434495307441174851779164174000100785685337322618393786,
  1215292431321882431283849906053586763782469844874172691984374463659708137994078937162890378434212148777443482236187341785090953566520758414863856006389792165830862885400965934931978523229060925781509825557713358042079224333592855084158254180738628441772040737345600839994024303746716382499175792522510901202967756084528256814866096167138744816791448916722761679527044995859266519098487104137840274601204181370609148987553886286172616450942708630980451655404029233298665080107526971816680167663862258989554701746481647439115557427944930713413743932864926763743203542522484988931541840544285025074481027850897186189632409577418689667899542882814033469695346446956520906582385320726507887333115543094163366395227702445275315329209356102520775313291723662883031537766155179861931308687373606467837234088357005954848401574977728709025881363601965412808361258988232721183688292295042081118150413312559415027643617156504937461342256498927316064824962018165242706783254435002816089077842226734800041126625763176143014203033382938198624090082170032512283568189663927920614925841298443598397263043109326566501498459997987547251167370715389803299010174988865347166928725905679375182357910718931729785217300968271846420926427609110724393521404735590448097884389801097429653932887284195861727617105755696078991401583289605340657651708193765601365924745769361047650059430133515998014551308663795278222037644397657061702450585018581009383263418869093563709788591498973087526809421830419983495099596073246278071559602305868729461561457530843460836432847088007215740522314723044113985496042757575917222269288230108555598966856610971582372175169306542701768973429192807877980243112945462238894927387084158152674925911554974416772504067340253317120858665305951309825849390651116474033632261296495162604978143692905095778105528252527122146295399891028975413700406413966622984189481808301,
  1216035917897413989084669119347657609663688179944354050731218558883993759477654296255925552843511862023835006381421708782462626739484790775646289097909400760168676326339336571913599771332520553979852735422177979967633818333108906267406316208752892302119366403866395298034583596269684596744291916226728612666430867690263294041825281913620693898903265951118202215796367056987742138024012033480617036437975425383289572574910661119851696215980083652821515302487446785245328959638874209299961441576286454518175637906500261693249995926703609576403681011450314386488362717191244874339116324090402445694355818217872749517586916394766347856113634723986070331171779358482912659297356703016654600799047737297065481262017666909386404467639155250350202031078183037920418416780885342093914351779038410307665923692111508570307761566139026874631138122062580996023940588410814414716154412842364305346194815005436800013698597819252490453255660648347609166273371952603341589170935676133762530624763423686074152858250358806730758866650546107295775951040442799251697728833948936651733252704659550717122096270694496243915181731742042792943063980798472815384176871479045417498435941186725379238973631937076798236167109033087090347178286771384313720551168400602107785882990917139539746571854755668463778138434764205563256028487505185262639246487163627925642497282106163225456640347260118809066628074686563658587769461235215767759884176336817661245329185421026292589468071468582333996855984108697540059931660401792132325498099802692400587967834477809202983354997609069769574436503678562280949690356403224988842853524474558283434746460255511304553524105927073072080378896486518045173596572991296899041747546449772558479862484193214735872769506155214340476646186611392777117202764060238018927190754036759912159856820955505243291123553130234062391652580134811730629679104748107688014012737657898,
  1216026728785772023766570258724285526836943639810876513936129463929953637320398088078938790188714185920056706352956598410863313712871957908768501477910556703749448560554219362846673891372728462146924366533803064321812697976450889229493934012501500988944926634355054535488883628241919943393647922950191692021805436429366627560595111325899276558045673177976983137373255143050391423764300627020324643851623178233959822589619827136605986170764903143332126874738411044656628072273077924393604956591443701983981493220596884450455557684440483640454901918194939626815803265233117412253970568691045458794445107259986898615710052598601401054604297787804134092592359450016888603921530090425023073171095754642552788119169084491994058777831828203134622130452098142804843335782937672026194180240731828042296185775789372048168755837041976937567879739448059770264936691107903976035826916493966907878455207456514237261235299969744565687496245364705589950645336572992828966691508976622918487130720345246768474687918982698939052455176922368646883105681844258284468220869746944341757430470797536110959968234136608592266551519755480682199387453726118915793667936746756595257232831185914875946986639147984422134445545907311291044013568071010614042031590956229709653619067175657068109603667140130956282674735617706390471437809765011455968083228625439384474708574288752802283294598516350239256415026783564859125118507350287771672059204895366478902155229367204629556690702331185986614365855582005083662226413642269831087152867815556225566663259104982163577907472637609942689285321543387598875544802903037665975752317227836817676875603280404835455390408363121150673591910388256516163276499343149080003567308659493119617351340417984724468312256637405679104466381214528285248790751286848954361715581643499127989905837768932577670160601730195584260857398195010307527953350540161239832236339021464]

theorem ssssHigh5_ok : ssssPlate.highOk (15728503227 / 40000000) 871409880000000 ⟨7436023171671920, 3187875529128080, 7410497386071920, 19144339200000, 19144339200000, 13052566291672320, -342649327740492069, 0, 0⟩ 401 62 272240436541678466240916046593588891899713396453086142277031291779751813682366386630962148779054050481755620145440 ssssVec5 = true := by
  decide +kernel

theorem ssss_brackets : ssssPlate.Brackets 0 [((19409831363 / 200000000), (3881966273 / 40000000)), ((28895461571 / 200000000), (28895461573 / 200000000)), ((49367764071 / 200000000), (49367764073 / 200000000)), ((77639339567 / 200000000), (77639339569 / 200000000)), ((78642516133 / 200000000), (15728503227 / 40000000))] :=
  .cons (IntPlate.low ssssLow1_ok) (IntPlate.high ssssHigh1_ok rfl) (.cons (IntPlate.low ssssLow2_ok) (IntPlate.high ssssHigh2_ok rfl) (.cons (IntPlate.low ssssLow3_ok) (IntPlate.high ssssHigh3_ok rfl) (.cons (IntPlate.low ssssLow4_ok) (IntPlate.high ssssHigh4_ok rfl) (.cons (IntPlate.low ssssLow5_ok) (IntPlate.high ssssHigh5_ok rfl) (.nil _ _)))))

end Composipy
