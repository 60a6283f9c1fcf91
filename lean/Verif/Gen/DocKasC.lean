import Verif.Lemmas.DocPlates

/-!
Generated by tools/gen_cert.py; the certificates are checked here.
-/

set_option maxRecDepth 100000

namespace Composipy

def kasCZero : Cert := ⟨339, 306, 21, 2 ^ 286, 3798442002036611713161600536607485156250000000000000000000000000000000000000000000000000000000, 0, [
  (0, 2876310387311376648053537653300947655676797832749528184568786446451219938141663281933906322500509378536989193918034913635123813450463748935626442686600509383626209886762998179149443122935386999757403356326218954748350396231211534431920781002132908977539605560592388486096945795499862361382844739846582306524049),
  (1, 1371531671195686649348038508081888034666441837668193905147927497125253647871810570685341988802199067371840092619912583177149575925186486054696552089777561526551508851326639403672798388635304273906637878512558784921594776783453503823106256946310782442062850945390677676036831871391019076218175279636834783),
  (2, 653997264478534054445285085717147843678685110887619927000011204302431892333894048063918108368968518911285444555240910034011761621842567571720004681877935091945977091569842622298102192505817748787300487589092868400502854696223654545672823996236647236158204851740099672966090384095191206871258428931),
  (3, 311850197066561724875109236582349702681868129199800456523900606299606271902987503082236341652378329711573335913150931194840016629013894196603822091828846452107800662596259739461736572806553040318798278107026216291951262980066110914547416309883769684035362879431615309652722798180993558922470),
  (4, 148701761754303801000170343676733828869756760215664127599668791913798461867803336659544154001416363578593701278938694227261104900482327525303545886910368896739187025428164893323205486194534489351586060190330237251821229173669702912672957421895402546184984749816331111600033085904900624),
  (5, 70906525494720364093861743772856630740049724681694091605982204396151762899305027322551800728519613789390371743996846347757997670699257069004337900890348141173288661292821901437613304441446043188401259200769684467204705292294234069057764658627451636238313912746585820493541244564),
  (6, 33810866114959890410357353102138820047402250614974065592757322500301248025562776242519283642751840784793039347703580636044980293067948505441107629142336543027196688649916734953365215641117498212386891554984620409907789100137017177419081520000158672097662489947011191881252),
  (7, 16122277314643807606867481757230196021748662288176567837122594118261932385236156579265622665182337209769300291561260718564752729816231845257793075306618870174624141863855056988386953595859153455482287035028959446601869526941927667259973902213641972490694972832929568),
  (8, 7687700898477462581094494703879449854730921882713588636933610018855062668436125666441892720463588816723675916658719832863406956880860765826257585740456668026076143800482908035704388712653068995227357555548457127874310615205327099788346692089781195703846113986),
  (9, 3665781449545604029223677970828747680058918897015375441042714127948314032510967061013732318574549276405846758114906051263417685576031522552080886941238470103147344699895112518728800734406969221970251643294444503014058038844018568427729118504751065071700),
  (10, 1747980808995058073627318368353246536282977531917274208566052497839858213418999434123111255831766847530697943522672127024763596883853776293832747973013957130727067545827372675744387688605993892756038993967719002392256444276156838980151198574809348),
  (11, 833502201554802929700526413132308262006272092779767135890032781370421911923876372532718007957806588041194955011748441303049841445369331348181982322224453017999260461023954030431665968968087651799836652177236623896093225259132849023899227498),
  (12, 397444821145440544939292151037363177302490278615840500538690872066249074320973869669619664577376570906820584984799422064596787765067536898533432923834712935570351675507397661872444644845034390124753043428450433150038576973152982740720),
  (13, 189516459057541153401990962523156727458233966168065819178518462330155538502645344523971633692185701443181858948540340371616741357613645594212482066147204201795374991451482088683043995274311261285552476214132287019149784228369219),
  (14, 90368489769716812802310448896005977372281249860618813055693467264797295428542046540395145218988929754073188700695905059385239792735799978784083528430137719674479686656806263651762486429945317446792350815333955174348976196),
  (15, 43091053852899938965945457885745038089811016214981120561903578351330890280783729614579072300231045228162790007239494427793839777161922683561239581954050547498029897190043832054672861556816158948710416063787640690298),
  (16, 20547415663194627268765191024186229667455631192819114396895784641161167570903718826520738731281099003822915770611756266463463726688794569103893724174597148864794997824126312194288518443225578407051747428217855),
  (17, 9797771293256105074294255628575035569000737536860492730272878225034989902072136442922222707353040676943341345273370697894529303972040867378961872375718473189692488122463064091363071562313475000003255251),
  (18, 4671941420200398585217731489384715883549953542559891698806705325920240177171994936608439793816710816364934168673382923335624195667217745548122780022116752294637811834717003840822573917448176709716),
  (19, 2227755270689433694360618537283340115871423209605306619363194840755550502125570134194751587009981466596749969331086887970771605782107563404961740153668713597151676002127697495714775195227861),
  (20, 1062863056989285178079129619955998167853690186034111649265992022282867070083041423789963434794993279590226293466757034664511393358466677062549379225070071316811167099207993733604738494),
  (21, 506532903750167757810052882248214650169872055967504137301260671290061432669603710744161487649694675926252575833571554755095678219528413055293274990167696436092931822086297795269),
  (22, 241533480016440424330854777105264028114810061694573925794371250634725786199129978939867878333200922525951910474087855707411966657925604377497055822011768735867605393452443),
  (23, 115172248058451424333548317663885351759295681303478931242541518843207806627496817902316745781863573255653771238491473795743660289263561122829307591391630379835253612),
  (24, 54918145596933598639043855146073117573302167066836038658345516383605740459554989351772616175954314159395880044947889844766333240952410662457965216229097510364),
  (25, 26187137352539087095855583177907422714403895009197092292955210341092561792010446653027486890065693984160971366001473721995603891499614207508858142748859),
  (26, 12489191324250867263899793168975272192957060891318542026999272112299739346343866825624262959046445512339834982473308247457690235612270866952379382),
  (27, 5954265668306271614343467360793272889121106062907556825091810022411620231345185254436529712460805009992991798077255273030703425213936193238),
  (28, 2839209705252487726157347090203631886013625195985573270116337962072120537457470115457582400442972864493061739716373352719731693732185),
  (29, 1353843269640896886273448995896164413663792654594180836586630429322765019209357138394849424374592938727729354627601019352216308),
  (30, 645559699068313587009872133177870832994106619020336288385849256556583293498795388105541333093068712060209240272375167647),
  (31, 307828320521715857088631327992467114234859995424407129922578517574014660162931336263342006010199503588105426858990),
  (32, 147083687258733583349632919659875236089681662534218221515449630758128028545952911057433013953153867663299100),
  (33, 69992056364548078807401811507939668439772606548156845218284584218819105287976099532408474285856800593),
  (34, 33189029303836235609659490634706815249997429457155156932010359466238431110509855951137478292388),
  (35, 15914351153703336338127538791467000072845806815933088326247554648584192273167965574391785),
  (36, 7588604637800310014158315170056289271288238056620302298402385914121928023424977878),
  (37, 3618504514463906055351347592699008751252401872313928039416366967742960542179),
  (38, 1725754991829874517442273744260903666074009864152177155014642763849867),
  (39, 822752670651898043862614456238248619940342008782496592185802987),
  (40, 392044423530305356561029269066436224172410122679616548604),
  (41, 187072298816002633802924426154616679823312862323560),
  (42, 89204214317722879673996632441066225841447500),
  (43, 42535316164403516030967712445602279178),
  (44, 20297313241160447420902858068159),
  (45, 9671411133583606481441761),
  (46, 4582450004245886461),
  (47, 2199024313448),
  (48, 1054656)], [
  ]⟩

theorem kasCZero_ok : kasCPlate.lowOk 0 417406097412109375 ⟨10933812673538433714, 6219777857550599286, 8527574807797983714, 1804678399305337500, 1804678399305337500, 25817668806935760408, 0, 0, 0⟩ kasCZero 0 = true := by decide +kernel

def kasCLow1 : Cert := ⟨345, 308, 20, 2 ^ 288, 22639306602232444102787609060789770312500000000000000000000000000000000000000000000000000000000, 0, [
  (0, 5109356065070535350110507350737914839479316270679415432581123850799184851464778973813024241545410953568388874989962360444889084263113535506838529122837618430041774770501891301160405958249515706731555549525894227584478277149611235759403583215536336581357223902629870730021513808481530298266982385),
  (1, 4872661652632270193205363608110346641043964644126334602910159922408280230965403531849884263558779672211065045214421506359185114477448394882015908757814650703342251808790493408986391858697512805122464777667919618826802862860522854486017920714756719985209114824332735018375859166271610197645),
  (2, 4646932270653028672414172752485605851215328830839476206693801805885582190480617076730617774542598412255137471661863498097050845314861907720842519329849297091177695174817668779699494470161785899656390449636104544469588640310367148642236338942949987385671290397924404205052403378941264),
  (3, 4431659956601170227445767166600805140700653868522144514745523267636854353409401966791742109816487736805925323928940619192093265648251889899272847704382928207800968173108875266392217124328316541449906645227257071308407019771204108735823098629366633422924915374405223786117691527),
  (4, 4226360279656572558828131834603123799038556927225250735040210025441030839356805769721739144110317072236115673889645683042474857155796801237578066003562611625826839672767507960147827720474952362606940623257814604393076804535407849841290492567230414954918616774584795203838),
  (5, 4030571250588009413555270990946887778318936278558016524353227639618903006893926400872935218849403203768803162724253067831245087101074557271999952991852132254344232323278948113769899457757076882505363004560169810561718910982492245833081494172386227646229922420928447),
  (6, 3843852282131204045825263014742744234389244345243469738343455924624350554365087891457499358823272826247132855778082131435815713781647318655572877551727222892814504878602342552845240324376330132851784041141683393339525282153414029911168533748963121221392426587),
  (7, 3665783197528080030274642004721397623433346123927564371436553883194304705179479442356006733630595153720772335427396575307532522937977633671464272900235432588739005668542157161824421974872959220618842330402847466186892455948335346013694862229947758282090),
  (8, 3495963284996109037661211018296620963509889720847668048321298488437803027472596526257188743441455411265213675512402660824926262600857995132088940309792534252537786964266802578860228932884884902480437413411773083990052125594999667591749690230248903),
  (9, 3334010396000012433682642954155560458669557305190723465272628632240395293239397679238652327750140708830872221456485309087128689649827197267869064123495369112873374451553367447343339585960438466070422978481766772561956683689093097637607537639),
  (10, 3179560085296642717058794931560097178144032769385074391838953586168553677351922539606428572897787511925230252137468775031926601438865014991380274942512432088051906195355232704156818438029575581434634132218307554914571033894411590831061),
  (11, 3032264790817873684939188891944977930206330079657534894772516355246372779987368869965270844294054034984054326649597801383778767516029196134310422553684532785189073855087130283456703610461651286920988100000344429654759602603542864),
  (12, 2891793051545976338328541652626970224577264861532128620928630184187920656579691123637166043204059263405551266785046331105938960600985432741356845903425142077809740412135829509111798778785001232248630225299171610210918308569),
  (13, 2757828761621452654198209431292505478455796113182817352659307890902574676108440391862012429407958437671568430084072666121475646480185394052783932088193177788005857879413784931042224273465006295688781483577556809119857),
  (14, 2630070459004833845327577049236275199437882035999957378326308512241883553321266347480615100261584219324673765036311028499112942181221283083149193359148970326834268779198359277107455460828614859684788752513400587),
  (15, 2508230647091707082107435203012171552688393170785592374586629558255810561371266756036233392740350842271447952749456316598378655808930185512620158326418451289132883348836542843981524399100363895834214566487),
  (16, 2392035147754390351572304117702282864638810893338464307978998325469984623380592210640745714688941722475292955127334156958248521444215523683584978187319867373520844900620367048188837649427317928806917),
  (17, 2281222484566016240577200792021131675828789046652964129494849752028854427009338646013523150527618269915617119307332549221287211091746040550795703232055624369422045605202656442582618137432761062),
  (18, 2175759068146826903670113960549431393205121208266628855035499240107366103891060443257114188766364596987960816121021024544196018941797592733807993832658397613630356769567201461670582466652),
  (19, 2074759766002868201492470389914170071637482149480844084810249657031011074383180068389180868664813106336754520573669035631225154285653401962317115200472880509137453349592436662914651),
  (20, 1981664268707706842800444570025662318107891994324215336001176326428368668029894927008891300465634367982541589995241462792188705040227633405197886828283430679910026983139489030),
  (21, 1886983011957410301470602546097615810969742912215762256672080104488436686542362828845378918661371262491603074379816469373871374592060245171800225952986551468574450228577),
  (22, 1799457397255767743354237027214557583362690188572345101283240593880503662328364582041905739883490312051117264358607103184745559528680400473744384507266780197690546),
  (23, 1716201051701421515628154520349193135210958162295547855341261582064344491134851714139471893834468095424164763076020411290420091879913403362808225774539713030),
  (24, 1636715595315137606592158176849573938294839007456311454377216450086576733891159029208942325957335861635527623044046683151835570085167292118386449369206),
  (25, 1560875764562691142530260195392930647824169650546326291978393365851803322724598042335946467819184136074959762079034747679726377725677088690182580),
  (26, 1489387659744239126733232883831300969238365900568211724091646822299363635285530028603718980138466302806167652996240951734408681984411336275),
  (27, 1419608236753473939379226791903766808432610995439830285710976750388553107958560268115197967263710731131415480733162362531707991125463),
  (28, 1353350705481883484006638337162188150320142294457045755768685212107498269530188622915658436088822578732384237725243961764483599),
  (29, 1291126170554599781524240560986996215215969967846448669723728321611390204550671018042536854141578974397806249876134683923),
  (30, 1232039567567824953783582305927962080906473248444962673576896004496697813855632002658866721368165656676505011930450),
  (31, 1174272417371414607132473931154220161323857873020418895718257381879536888462392491400009035944706578588409177),
  (32, 1128267868134589067014327489293133843552168062872998165434420407409283601820341851799000954756936521036),
  (33, 1067994519861824839711992459501982485637178858156159144784956205018533763762996463574201437542527),
  (34, 1004329705913793376044843749553068831115371542942706471283509597461640494185502949874615035),
  (35, 971335372464596634883004312675714029078549485518036943891194100642505707668795887511),
  (36, 926431240217339473718867515218111498977743652442957344942198231881063296775084),
  (37, 883424375423439351772697861358271082400272445681658877551880417275599536),
  (38, 842904085205396076744674457865396882948101217320877785010171052973),
  (39, 803469786498505216625261164556177944159819609850176453761644),
  (40, 764561928294979831209567227859232429393860819168018705),
  (41, 730751516368586465265978667957052853647332357096),
  (42, 696921548944643356461265428894211042495990),
  (43, 664614633115880761508324187031836412),
  (44, 634951414515646051594489348524),
  (45, 604463474413682276463584),
  (46, 565698182735480364),
  (47, 549756351766),
  (48, 532978)], [
  ]⟩

theorem kasCLow1_ok : kasCPlate.lowOk (9899 / 20) 3339248779296875000 ⟨87470501388307469712, 49758222860404794288, 68220598462383869712, 14437427194442700000, 14437427194442700000, 206541350455486083264, -1652761183312988281250, -826380591656494140625, 0⟩ kasCLow1 0 = true := by decide +kernel

def kasCVec1 : List ℕ := [
  15404073390832866652769580780150178867896150573537956765332177628415763885765390623116407272963418778575652842302620256897114479580293761699323039778269097029255686768425395701518295246947177790370905320081672736419094106564263026393573016809137403171515579081626395508582713720626792712485436528649972372588676318522610656933597374925666768169709521583072586145113774211696499247776778544996107392774086438358161045364235189495611006367447444317322090540578267480865176716042106277178811875537770963960142250445060043186903853874286420770491250561037835711045384662102943508224588372399660833330705973957162252158107648]

theorem kasCHigh1_ok : kasCPlate.highOk (9901 / 20) 3339248779296875000 ⟨87470501388307469712, 49758222860404794288, 68220598462383869712, 14437427194442700000, 14437427194442700000, 206541350455486083264, -1653095108190917968750, -826547554095458984375, 0⟩ 393 42 0 kasCVec1 = true := by
  decide +kernel

theorem kasC_brackets : kasCPlate.Brackets 0 [((9899 / 20), (9901 / 20))] :=
  .cons (IntPlate.low kasCLow1_ok) (IntPlate.high kasCHigh1_ok rfl) (.nil _ _)

end Composipy
