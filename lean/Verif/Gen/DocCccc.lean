import Verif.Lemmas.DocPlates

/-!
Generated by tools/gen_cert.py; the certificates are checked here.
-/

set_option maxRecDepth 100000

namespace Composipy

def ccccZero : Cert := ⟨328, 290, 25, 2 ^ 266, 179801566870647636392518857149340820312500000000000000000000000000000000000000000000000000, 0, [
  (0, 187914017327674727408006617945100199364163485888354441917121010610368981746131095981005657888256844698004332524508389627384357765638482238121678468280460344676959306466256486668870028752246843179665327465825675141089418316649227603606816348096057849352591600915255372513671202798703516621321699956885606567137884345963445907227601213246798042302706159454294545458009506152303173520625029762408325505515576207819341000124331782190969500992209722175760293714142501411808152179298383321474103670158303176052302057746988120940079140087125257137746139677597116264550946303519656051377882758506493227006657787913818903287500057372169159548367674654157654861803121756412492423477246859837365410596287641106871582473613244245583424713656369679949983176384257717),
  (1, 5600274125566325408458906946930295210008725103388859090719253140996962241713139295011927422531153103649745360747229743819962673355295724812796070226444612284808138205595507820512951277263368462910214885050823543700260469813621866810524950864793594162243354347802858725597596251925930876175215839054751591895159612475736317253935373224222601720771377070376114411890790049800371334571392231059322521254884487623552709821591728394954487710959111701054328841190142459879073164391469957483062091303204523244725660061893082139263592413926583101354667265391800850626718726976529685142145615153918786451437583774728076978920920844116275440188298958721230310622726014579302238073663453542346051399884271477978228994390387130005389544817847469980512535641),
  (2, 166901174949596089376774637309619641602299365502263876519180927902369566014800646752474529222582373131804029963828019613622506658890715980911137766434091695690397566723689669981984832205276741472191062124098048916466846162486728036717323984646606271333794425362433753180432207939801540260768408747158992048953760042063484110055427945382076553129296811532262397166812123352300266461711890431026295460906162489162466222691289436666801318316037241229265787680423517004021451381219723513286337015944006647926858444858214085682418861472241745939238530666981324742005376275899581559224086376732756954411024606810317881964027627223630155013249485435619075615723550806055104793850873840725099349472049450665215391103503210403114586185324223274695),
  (3, 4974042622732999604248244682241071510383467838235613003944782254170464456522484026923016584592532310837627350206018078733161290254912256625626616669717183580708431205859472453057313925185106440549822512987197903289402906968794108531395315666395612696820331375671438967598444460028455861233723424290388585595898629488452795447570918362798588071146512375243377601111296515235312773636337829560825093415563180719687528094389719974519940312872656543012175644351478980383383863023967593729384544685425314199685599955613889212430432222743819153793505060745445263275050818430944654905041338038964197632464928572783544414504592400080714072785159992814412530143057180724963389711890276082518017575240597926722451582939428829020975485683951),
  (4, 148238021812826383240468641586335644435389871544707208989405103152110113397910714951843517559544214929271559423387589416896143265214927691984969874313985812089098429854496492536583957826647354380781129389619764783662644236349883929830649962019789597297320704927189319360209836364640470183900696763109820651885826274408483369576064299428420903418854247785907316241004959202865146804938847707534584206806516072740779164372380714059412369618353536404119194976105313805365582790984353405092552442367021562472090250293018888374654147258498757464925874253059046595740438884161865731713801606891848126799226231469962387149563299119734633750385748302911802967292062194755756641577115000555337208663506417567825730594981047451323210),
  (5, 4417837316180061794533391046116818321805890546581363945883664582732621234593114702458486484275585857906090003949033898618702389753309717535524662563621575000557256634667411224144219095308999847793016713548295640458543426881727097327430545151823449054280540493940988760000760446925177281615158819052869696971351691317811112689258584363115456802214808696088412888080029463853393399862612715588050610029891612313514245890156708261984036449499273311072470075772621767157500128172171143993893808705251977637785465262443563232354935286109147096089764157219251228845507531078463015095434102611943729508959265317472479489411558271119913991969614761674967606949974058742937490937237688851805205287783124092610769128176757722),
  (6, 131661811953188830451172323409224102550920562344234107312073248110193646985087236835315420755016382274213135360152539569696855239668778107628961281884359568374075193246227837328440520027548070186168453501114119304971201028875324050409512077326281340547816172061592005491279376951610364962075913520242860823015919068986508628405886422488554024762356540444147970917225762124460738893229148256422597468790258701699932797767270064577409656427461043318436211526280702518694529067493823458101225763384154692666224897864061394556053126843616785783857798538749248183009300139343298295227428015384556373467249444693531851692222754315466143314411079164378941742044331934960036852286968713931396036683466752221202120156),
  (7, 3923827765977049781417021853006604389873759816415134290220536235278655498775459433654410265535604425496254425053374158432985998382233920920758285578619228851022577084488506237519994974957349007909549877080742100029325515892366291594788792053648273365134482743191480800249558000314544587197181985385503197402236433893040079724964094832198441766570703400497078028834633890523336496747408755315023677823632248420863208394830836915074237654055919162172041649499495668243198455713917115192661850667962105587099704055221661386293658406204084417659895651438663713705698427430941998594209520185428759607238423947218062875137564376182099364675393183977378566794568715806218657708051308453945218919934395520301),
  (8, 116939180075438314122468884378868472274355882895443865365401990272958740555508715917301483915317190453298521788518850756674587678379831341527649330455637837976890119447961635515689700095574528214620050104878607393185064670216032612168454887081631224308445535397275710113333404073552625989829957049653029364414108809621336451916816676622582726674398881211789787674982365683416619799953960129519624075487128538150267332962294560797914122242720184045165662510457124836506843790393035810915425847692745747358382566299148150914502728368405125460773399802973133164084146647220837371800271701069787791111274696884233206272916149112817739127350344228155295811726523307188821827267245439325270392124598),
  (9, 3485059144360968891455795895423545607160207119448300163906871982603035585746428844848319408754026605287150197879041753908234467458123902724017182900179560124185386879681397542825034263598159796435238424088913422619851370758296031122459616872120834121359751683392396870652836682604331552679239423562676589620533848095576061365509530205207548340392079389446669449656676223379868859136760224938951557631781617766173242282395003838182657380694014835647220761725808724895324568465677834608568598860703445043380195505945863663021649818008675638287084427903122291788300499534282881392012992147706588553746941602986807042944026203261531805916632829510264291550699811881711072163515971253122768),
  (10, 103862856160431173189157125217424202178722832186469440576638936477990018896652127648839932941020327964042133029670767602569892032686588249326264348631488088494103755941432641232759781587069028509713364365366501290197711311527968380524504687551284853260509719949734117706204553920159684201456291185697215486184771302210571210548565691864715467107059937401016636182566768627789424185101911527249476733404142771336454075062322159321710963537047338763976048364213346035186075998408749866147139650496523817602247633478640630179068034417450187476504639787683830393808807786390774366624890779923629654152737149327702764939467546311875700581154837726399495301163659870868462208574012062),
  (11, 3095354323399995958481941378635889356694305902316255586643187298714817133446101178194282440573582886577908188988887298183735967656570322791524659056409838452759497044725198782466643499942690983704130779664710202521017530904053699389830371366479541458502701519421759775465862569813718920989522075226819976752542594141083097772257497664234503123374579471380014305787347365633201633662653494101587410587572863397467199946830501153049811826299210686472989571103286856341274959659478760766143548221606593828028325490111048059449714901787099038980487898412642927083530269198747822325871144598909506767168516603730059471157390443119687884919127694869240738394667757732338787509),
  (12, 92248747450113176062164943773623983761498507926352488596534350476110492153349553888865782039570298390922194391157844608537434567706892573580880733025367213867887766502058469726641282437523930779222571243784135655195043411971738916332434754564748449876984999162607186301525311762503353386805119372213482163922267977627608113654181291587188932996230705719590694220902747124080906379961403650062617064618253345195451460996484988516719503706064979529705497802435386791627192621029000022110893838734319322609369740751749141688090483941796468844597249361459761196701190640057686747558114875480993494869672023815971118203925844778833060059601836016478492943826326489436),
  (13, 2749226911369358779852537625241994373843029377649798649446199848535969619552777823473983467804500412670439314578707355515284376374092476772692225367586827691432469084920241526563205791638014637804704047554258574700207811950795022139919839935444249209075719093162035533831277840212087434137020092374488179800577997494566682388013043748950628429538926744625289700123395228888331014251130451907574004836482078788982811271940204736781796609770277930694386922440672503124317304060192990121785999880631070749239635768897744966703724120299746335223748049656090762865272487623331411524122729932615598222578983575069507016291040485155886657650759588708794634869562),
  (14, 81933346729557477827445793904125522787661235858494003100579972521542597399734789832651122445002210517836788731178860530712734948816671275278694193589294782025589617637403056817150288571060140067479135023184376201039785502874702875015730855925209796699157926236451731140353615290286762539655568968489413851516783162789543938279540650515277040980519541512590088752282293932893259799383431384673344343748967926155772412218787545094122107699289206026475811692639054242471952299732255948680980975018206168866778907624748709184980118098647602458013872669646164443050063444206276826631143217963718323536402838059588732866429354299568928057424014075995804),
  (15, 2441804013537093336208039340499804103006757374360978695767521039293485802404129202146861626058882788355254791116084472260258643293877580025157159375825368822383571196717114949737497823567990662678454369997512584955685898747286286205522145507490926882599530405892483327995348432370625810016857652917188818797969316327260253974185605362608277125160453558886523371091149839134438712432839757621594253944765606805721433340816165625032716136474342746084056085982785742003311483962216366125458664038716778325788668947919037569776346644207960988172937970616615362530243012829703205968495179413559559317188894040988359944811772834870937492797853551),
  (16, 72771430419000784641743878737086179942094009350567421190962822416230613064888989989365983785953604827977859709146156080372889140065836311136399488920729423236357307336244432620331580149173458298398684561178463249077972732403465694353644415959445443230853390869274238586287153731901222765948106435453558528362790236689455925649069310563094620349106926602397211780636547809734996449278887648644130277586812820857278289329185692427250877724404401683780559662953138600404975964489012729503924319329740120713870592239497357580889507548613549424440560300142331829342648971284972288429189049650547118206603225001101770564423232528095071271),
  (17, 2168757629960798759512420855077689288320958893017990028588855934626776369359761178176581376372385168909366718207185151588108811976487526629459842709324640728126684049852026481042253379499121257615050213372065521749197624099357893894721401213390989399875801529564685779401277116891778193889501882656024650584542460342927545460978613831921999685252112308103217562044286480983305692700228289061222262979832983311717229540924568853556338192508449504177525810493291620539270802944760411423423708241682990532929860124883617149253406887314607838302518719099225474495815791201555043205010719068554736636852851073167077020136693955671),
  (18, 64634014068865739092600967141320982227354016691982448953058002430998574774258171861665885936390911606233320182776008593681717275872454840822811207453150770906409145887256457836695116147372760105581587951542899660742212060074743446550411022108524721857184217261215620619096670058124607619330343087197084742323829631489200962484001311544780062656345509168083610730221534543230111951961172860217190588494094982897392123949662174011970767782437002184152393146189266312374163378256278250432809685228632368792771682654408403190058121776992247706080396736012602659733787390197894257671884372679879281482416828864593329452556),
  (19, 1926243724491171213763981078306465811352551480888797311575949264496522390075271483113345084678855884260932212554693478157571472998632634902680254204665147391152654465653194720646593455891989472674774764524188627622789503934226734833431572380916020925557143010533321518275042476002115238288949223971280000962491841460767055637898265721916681222668068644339495707669686981032498146575057514227707206834072750948108845399154347079220268925743833169092865773150787267780494862339490791759609975789864642564884865633167788580317561716904737293769949909145573807892726515692606597121801169384804680452488313596289677),
  (20, 57406536474560833387493523308827454190032228257918277727840818896786045732357248160640748878683325179247028009733363335060223132331151810368307060142312866185684635211622557659345670220017119427763663665181059468471691129631600822014557492164254812167797774390379235693068578124109364697007811783903158986455596420908119400343395974838911739195604860633240711731125211758272688709663614669296359143570322292937135352106564893708623240307454838809204254876962038441639705441976696686286537320380452912373962907470468878676694899517893753199620915839540755011059609057845953533877721928308065013500185490),
  (21, 1710848107175851863249943354988916343153483517703958682055497732662738732467807774562858011683324729777783990196387867184287999043797010492333980206916119640638966417659001280645897096992049200170149316346080883397808406640040898979144021635182345276111298036288596263321297708872239729672934772470572048912661942483810485860788346309096446128675595341454651599284462921539136525554533856891490690078246362514790599695232490193834332552218153680458485069417047909896444050525561125966043780774805810356814670618660365427992939704653393635266590030537934761612234004705707230971482163622355756221),
  (22, 50987246846433039404450158923534045909448966911553105177149109025679192914599411921586335053542993360095739072453614091404914827459961488614498979059342135210006428291171827335533413201333558564488569389166858297521126468182828991983652759646843232992628158220308907727041772272355596917426294805938587552177965493816222296769750673745387371094076350830588737659939307552213491703960035599409243124304193048933901998426473097283050596238738621353312322350969888714450955120586514996171869808609180539259761707005231729158736630977454754341987264966468521834316967228193092201525399716526),
  (23, 1519538368178398591412608591423453268690376487718615090166005761196589258748275396871159525321215193274490209592986526829150760992168232459261983008961145139038754352664107898936671412030862527027385514651741334722075655108178525924195431460346079855937604851135877005071692894253007558820025189247234842120604637765613551620583435669077865884443783400756719897455329583787222989319077103762175858292195664494519343484768235068636335292959988758981577250600782722014757755980660538898849622988625831994771626820322982838827486376071283646664928881317436500142012300419003034027903),
  (24, 45285772328925090772289293748839296957563653222281190459907226598161138854869466926788077513015723028018778848439053500567399292950875534393250435857806954951249192734483119813700658441509679765325352986208836278977264616137103018885714753280463214395570899579998165590183695628989906738977984325566376269969757006119435230425250052747619706414342471580890727113840438862196208409217708317420223485789934221481767342890833141090986485698549873153830349888586339449602611316112496522416177711367043566009387571570229604590226655530979663493353184775128073740257716303759598),
  (25, 1349621186522397123941460065509059934543480075069701387283421355431113805021925775014998838693372101426684226049156591313105800537791119050778461571270434705950295708611104482820649696633508198419968872851396688192405242208752126064470850029005504083501425373032148431399697507360423377134248147159869474679904498531440315181711661789659305132225224266877919163026782955546472683559497231054850233421818766170153768664702308787103826255235743107867482322423445882674620263129754554107670492011595544600758436468653623918425628437937886457529463378642872860318174035),
  (26, 40221845702004346964998843238027689890369179101875465729338567120764070898947887868136132916610601586898691238437789419683986918264362783753230022527886471329638234037491812790055563945576792908309962536436220651638664073012832583918298781782552721604822845508527862003167969098476677891708989956118654934271435794132545603799801187043607709353791851748223773031894024752220853878042206031566372457651208835206698336153811224490575444382261174808009031706679102869352263773853937283239838580714480515242960502702099513024364575884571985888918658220611326642),
  (27, 1198704412639270632415975428760876950334584090169533065835790846370579925148126121405843881267625140753349400712185782780766097255479180328644216732021763066340632260963076734246479390429758814224897698653823752750118496209765451667258107119278766597025477220639498466920160437134955749149311023708504731825487886165516946938094685758438255191657835671734532408153467631121865556500407889776827097294979063768384681640471859494284087543930348827636667187950748004867287588590022731737407514376291218976050021747237931828748216958790945219736414648987),
  (28, 35724175353028495085715515278603939722018959825323017413490737866478560124281827253277417459119115494291466495757871353053036250337337861318713925243072601149697073130699298806383591605119669861343434412891380570832446104579134335138145376647568895793376516290131820109527750102340355920870993890942950453563649033369907447568923950801688592059950497820892133983533467287799326791185955337362625585235897350224505979827233499833762381600220623985355684322580028996097386416127425176998625581611101148378244120120939529771929240192650492401951),
  (29, 1064663390905514213017091610390065304101078505078644079372010763480620387920195676484031005475494727322204902641709785254390127966920669714174089588018435274055512938818314635943877446804036791960699391749244349325670185821626613665867232111983761267002866762023486677847462798496095924359157951505646296040009853223350835721675834648618400555798053974412421060843934209847236742363227896039942990726108901158695809731615920358834983816225120980583572557315908176206919263070196186506791282298311844608594083521879338340322493944158755),
  (30, 31729441610143012196334946465196171525152877124507548790335975989121806261545290842176407738789758900469687659791403569411937235800047806327762889504982092203364161813804943440672083103777074574252944938815961758067315394338693454327668196917777029210944243688684882244458346797736794998149153577350681383557557382543288306134237242840600493487146932552834746098160995668494443700723622252299121582860616527456942122867574816827445896996914442941070347071670319168784061848984511359428057596887324676502726790918232700846917895),
  (31, 945611048047036296019999577557926521454837236538754367540358781490379758523264254396450750195674863471677531593781816047785795801879400203459348961859407788615350777322201235314371678345712261624722031915663533153173306139141951390256870103918742547447453418487877191699721460641040869493507865985494647521055376918158980484681198455821673640872519877446475888268520771447719108244697856064046813249292844498882705697893963345567443836951270458343882258674797831107667115250860145964080694107356747360204029954535918970),
  (32, 28181405307264217615723597334561542315925277368389200196872913285803191617824562024964414542784537776460574018769914390080743902977687126501183180864435666460256301680868900874685397098830707717678607461323275539257629793587064939235404387824680179468720219526048331922428317304725504164916723126484742052586505102187660400607290843922079696553177956710452217462772360296124101155348835803267874348841781098464963739217072669356527536358577839681635667126875634469418706922372106540024089108613135863905382481865),
  (33, 839871326305395889750826279358909795162835042726671701576498546773290384346978724746835665189759068979638040625152420702002760856678698256647085573209395005114564349677231933912199649179896942307907603774831714031895383761188838300466804823006184399010670252333052475011596713286062397222530772751390076676400767495338135523677835315953818233819811851090845117017491315625808587722082872587613966049929966891651435445615575618331177822652267795846528535172994347930107209369464551145923392113154334604156),
  (34, 25030116030734654955590554456678324793661685071190348314538554751077007780879101894701590096645327478040398377929700037896715428134164162178250717318338006887273918082631586012607802426215915199533984650763330822906182912705872325315750690393964467097514277529558080216764334310659606054589063797091399521952792666526958861181391437138781329107361247186488060662811584622905152479650186468785229418038247947799958073754816970180621319833441791069464578884486548472435943003102566808015800793288356),
  (35, 745955587349374739992337061663816118051459940409372696713762126895100110199424680909561815757910236061823319731047750648758275155251150196142516056249678340174970569689023077863687349199743494517679673570562956596428934100995077149148973370098096236255750810936207655816435945735365725368430730366357724080537720408968847834446367839875847332300926347719747063216861978176426558787840830024025941021028278337310361477735895608857624226778750158956891450334143299014056270848586123097539922),
  (36, 22231208901088677048454793145174268426044581544678589603715006318542364543659230497764403097567267300540903798670999725125976656533811992291883112676432083254306631377012225325869691674956544390790848675390303141023162015173537115819775115466367777609865117887459201007561308652699642155450510209382033990816142665009224932501369962766116774129007559914441281353903428336722665131786008644147676061154079789841177503092969900792333342888544732484326836041375882351250972494728067823),
  (37, 662541654738446386112415586268134964288609669944005894771665523008774654378272011809480282591797927038100475033253423128306170002633690604325625678194525338837702017337506278256363008015171384485162849979077025623804601055592211172577185849982987147936666867256534755991853555338426454391814193424905862342244811810095227302296554425076412295540527713351790825029808311684005901271648964058977094900996339177326514562872122090791754597968676838803381563900975593734241799861),
  (38, 19745279989792298856747614928130357393282940088033851825346515268348892163582802170797594862931905002537383885182542298087661564428618270287681391185358921850851297416436427643361047093395739463553349296177342419787356815733854947601862096615627568438601891590790925174414722096003843185870667307604400780187654224854941364304921060870772754285864139835967790333570470415501343781384302090064753755827713024943423428838137714319114892228979148913614894503322206852293),
  (39, 588455199891099299691546408180307072200862767935808057348326303611662750350916450345444526163694411591809507762865492644538329971689530321588557695906130190222401027035857086670252156296057455331024436804358223665573089613646688214103926792052863792267656063728815026406570198733768383098660134445875836495040765338749661779047979577379398412690697638021241877397891659940365082825548051913374393808138019718975860704349415777969448852581963009502216863316035),
  (40, 17537331577870228877411675696978183752324067590707780639777371394981823872057093690199986879935694086307570569600626607076475917449281523275034358979995710587404867168549881224078697645797393385560456628334480526154232450500917487934529222860636930481191435973607181165941340893515135970084469917108424782360374011206045685284533414765865683426815041988060742875525714133062300614192645814228469247486614375684389067063161211941868191026418975236828169),
  (41, 522653209503597881716837754755562059650542366227739472382586341946775432588371446436643209455480995366202907848376828642978546543397948839526650925609403380380493016850872105849769879318097332983467413262024009463642001930374915520684103548874182321609101754372899903394060619683599198183768398283199934850036072806153319508855084717613853166980487343805439248961311342879772673576531596228572479697505244370345755946601678176009598789251954228),
  (42, 15576279446589883617068462215529741634444664902321680557208846269451839702974899006981945319637089829629746313344741721242026881676868097514166269101596860875901900201468981469187293864399544039308817328449709115373073147907559498758773927660288261985145903921783381350936246832577540612189486253676713593710524901231321682906873345046645401836830630820796926805277320493334720684426624227140917792451934893126348893013304770160468450370),
  (43, 464209301668104041131390995250038553310771730611374394810463376922960272520032495468316832770022446800164768497489146031201710868037375474605356408599637465596278706261355855919394398285805372943510550940667504692457559700072680353414211121610780376228632455320582086699490098418931771140388779329344691516045751429240490106369070448433740770505282790575164087189619835030153519273464732483113111464746963130763220844840454026356),
  (44, 13834515263679744038921326257289604941331497747044992292239170578806408420802131160149479888976289236550473228022132726167669788798105762008902787153796076922087274110833031298738328279940477035342367835010799669030095967865324123262001417212241670388271188236180658081119530741977223514318938236688388546962510962656746332388253688478374550134570850726360292249843408206788351958247789637062130524924345536645181500442546),
  (45, 412300683965675355163852162876415399948701195330768593914484100902271521711413000826522108583935774461939133084730566170977172601876566745421949024770030495134823710699257058719538572687027505341120245992853501505952457694319754208720818602433037657967735582739522977081559858499422677133908686943017263452633918782903972287788156826537329811665073749239176802494305049364107325059076214286272135620473074852601004),
  (46, 12287517904212336396093731012237530945202743867956656036212566521831498197061210895375076192138665153482180920239207131876306157928973482394355563999989255472072077538226442480705201768886190265667336656374178277961695620028610619466376031512316957612561738027417391513456547748175034356728861415765560859664535927467403684244673634902471179383230606697478986477120228194941965324061788340090712707962217894),
  (47, 366196569925914299371651739246771661794267412065167904979365066344484633119738426666709071163538464797006950154006380053602191707414493191758647937033672730587040164077594926083255025547834369821543906999752633001522261293320896794899760532413129577226038041087484802041007670266640424195062403424801986348325517827117083508054190017698866676392566474811290032160126495791619083312259526808767236719),
  (48, 10913508234200307708133808948003401213713509203945633917431982348694939408294511636099534795886044043040261622054131712753300545897943110303038012395547686541299840277444254558347189250453090211725872836765552706064708320710256184504723378494076206715183731770921901572253003125780978117797485981024726582895693208833009527862278105781538660798503225035346055689054926881898186707769428713743),
  (49, 325247890776404968146497277855974471977755701659489688796758125683514458188251054193278233748879236095480508142868469622548423536613514091075868685712084510533180907322700243590341751110442802982311158945492114103364045178962064631257366246629656214796020510457634815723111909556958384459034034028789362347703781993794431072565354480025890548828430585862887408123257324472845692195879),
  (50, 9693142496836333517625846798896028756432405163630535864733401706323458501130699319779428739304135140128072060466595972331622652104377003171160041713882923337740844018243915964297616391257324915507681043386874709282440352287864139813328415386548077707647155748266179356868980696981607500243111928766348423714207802771432699229711694394703876096347138227943296659689761688389476),
  (51, 288878157640586302209670746293545626295578633655027623913687518433764805567236036086269601603026092567444380716860245161141316394504145851418342357224702257991642384931629332268414599635260720972836355974472764920232857436574846515553013120019388753217661411987567947472724360142127365341449002938585859524091883058191165378374577879629358802681843865929907405290732842),
  (52, 8609239984768220848133288213418293782936889936179745909990186131203316482664626479074492021262472380053440955560109394144092111544849174755667287202894983056655923337876064563385692139809838459141019917926655269981323476501368648298039580861462528301292912038966278590654271850451576034292496726767817539975792625694681208296219309511083336861716780040913337752),
  (53, 256575345539099599365391976041146927563455400949128282360874565715597086160299035414680189071668963285787537163451179829457964725932630933359740874700757187614378910400506797448792938831644348733588749391729214876401942035556421214120843460248843987319584541647589633520036931518956199779211703315400510728774221952082603698223477903754392391189130664440),
  (54, 7646541164490568618935107470784989820821764279779315428481803337327708417620976358168393085978413376131669991051955511546178678950056882121485055029794837802104107540251321037659877401104871054525525492839295705748108766071934614553043815564499122925287836053955485825862147364864422044459507785962176237011643642981139721308876234647256267319117),
  (55, 227884684934931058255884273969679791965749591082769760299376829861903275423836154915651601798156014625210349716132300126879277142925742374549900762713833656586208208135142937225807973509461871897691178837799348017636973441394111268078397292702424384861368069757977216244114569305534535087891934096391571422222557362346880827187507363043051),
  (56, 6791492847649188585754760352371345716778750144982785716310111792131844852505100198316281956780550581611356220636688192506833001162519445518794590947189538621702317655207348702713493496399496770182768217833835182653953540970775187578897892512633464726367721619327519783025704881543401785326549751875849368804342010098370336061058248),
  (57, 202402259339368003213821682903535673757387163357822580585693506164854144792346916499146127354464313827131906083278387408769575415426948179247916888873601057968423894542643938054411002535056288962373223619215301913525853383548792809259883378394454406856878684648856634188535543106564901818884986334399135249593060846727223587),
  (58, 6032057384863930102100080998277252095028522736556886800814091802910051502349128601067219528254645109254032036461848518550739155006473834211466396700508457059501809067676314278026645116172829950367942363080333316066499151527557447722277022628541793432884469610091813994993771028585287111792828432877513649267851523670),
  (59, 179805675130816616441624830915432064805936473347390859553040255829096479411854991995207329615303350438617808982102098092071250047507328772980482027412945100949384855557404626476741663782039674614142748782181171098817022798743676738411712520758021509851401157730711752137078833294953056897706604524229854605102),
  (60, 5357543195598566125973959119703221114427411923457461021271082831288641069861610625629349290493622326100271629336111143099721563280928252441242669072981188188121532759033586163296620621292309345734216739932656967595947440812733435987766722031769882101794389865710474480462541650424745628864870541656526),
  (61, 159667229521231833874403212061620387864929792984052330889437680703500187973490640566583738327187250158588001662587695524995022269479628053740762858224632491375142380779596217159086533579986377120998100099144078934005878846320497414290848928509021484713143076836452526204779569635546937486586338),
  (62, 4758454248941893395018673302579533691925474290706148664343633116123449736924474927430868493748071328678552907447065290660230909249118907704627328919900165836845693167442312528737758227877411118444068092760815991897487321203587056720753584264155036324088206700315606953295390060395202798),
  (63, 141812987594064873308499851899505441645396086792809794795294103533022349240669664986988149710736845952027617355734609768540019838056045495193194428577103157970928039223030396652838567371082630401445888712196321435248518366363962975062585289170844099841794795483037034603507847474),
  (64, 4226356375040557185068498384442936732631367473160442544154374992354079582246805927208116917146895615438262748238651389386710003298520705176611167194348847136771207655119469562933617817941025142633445011819524326643399872380294569773501821489622574903646052502309007839464),
  (65, 125955235214249780105110803880679311180685961463831503533190919043238552701388808891482937420476981141449486597510100928742266849885209746984838036640756995887370693834884970590669156229857055074623509563393116361103253261287454251625125353118642412298465364367735),
  (66, 3753758302531635017453257001134791018342979217799368672424537662294610142064814602876909239120498227436953661390297626593945375524070224171501662498595682427846557880141517232265063333006820656573333510921742680331122524865274757506947919388207932525148998),
  (67, 111870721765553511285217726560618475944001254730878788280895208327838755214128567565715711894252505594790284868709995077514524099111710476915520507149571936931471393027268752501210094734525934104387989591221164945006062665924969882437823478710267040),
  (68, 3334010694080456851820054139834457988590234347325110039875767506371781445147628329828092719267674652886430285749972828464659373510279115808023278306995471698091460024732782062079046830482243409603837291986947919635420192129724280299535305852),
  (69, 99361160868438014862911719986706501436973166136669491555419175840709914486464743551161981405153038271011484353676373500681375110265064965306338234957632027793343452585151159248928481504166571353747206272755991917856806532323808986312),
  (70, 2961193349016824628693522302242462337977717325264057819800995544588846803023709919390898853365950526259912120792051015232279546896707627462569395971427106492923444410669782311399650703953472081886884445432443893879795661545258),
  (71, 88250365197797204258607779937710233751021198283125379670652246092713669722158613855404150814881086598859787500626839666307950338136710327495818942218213462454984250802217002209682917668923337454274288384573457886337622),
  (72, 2630068029156186573871058863565704358810928560935177125179763565017581052012433869336722181352980247208293146724702175242620002582005474474549378830536514235087454382857950954457406648773188609901496873945700249),
  (73, 78382004492189756367278441008008772749957242110994151179414549635131128034528632072288746638823678165189120714644367978206016428218559884483597282172439775173372875663365452820962217300574164856064112706),
  (74, 2335969665839855974572441178155498618762138205680785028085957769612876299618148146618749364144896147293698149803711191828712612776279244657830426325435812077909612245532087388778773222089508020738),
  (75, 69617437255673072151147991882199553649786871742303784074855941708509396441449858555789352628969867425759477118046744120545891292342657969283235145567131965980945222534649858306029228589199),
  (76, 2074757846323486985475138864229253830476535985500130759301516475070313249314622611512604637497187693414364911864155900047171826670438661990583298916723984595912489952811524202573221),
  (77, 61882662495812871346758872185537926048028532897822572193590035549037633970201130055389603915471109373270942853967362680367768404433181317670677373461379216666251106543838026),
  (78, 1842755145064776559357224177371207551857571588987279049421976223189727851361390818435783479279877797648771714239497452038186043055452318012082687441892245956146054284),
  (79, 54819752385333711750275589196581480161758616937347560903752081473841162902493775825116097537903513233445997332778771702890533643865056237115578061115619342177),
  (80, 1636695352725393487371465377930299152983863216191820699570215270082478379394743941655795134044498605575095683962846403329471977936221887897240448897641),
  (81, 48777322552364870529516499576952499236522621955555903580924084138247855616166874469676630347100840242700372429063988157692864930767767565128798),
  (82, 1453677578560106984136975594577996363620047699686015572632206270176694073623035663644826166597019565908395776161959887159727702548403295),
  (83, 43322965261762786659933191707337484593123590590101733503349760218506839477185998070067580453760219407649671469296320123423325935),
  (84, 1291125208393107174746036224691929655387349363947628761380860489168200022672182076627777724042283005699035083090566581177),
  (85, 38478522822918696543146876849649138541521571154787671444283202591348327879569948134074637809418788017518233697522),
  (86, 1146752144585820477284429839325001301735904673861090031477640593618850385726216308072708342658097945375771),
  (87, 34175793593245659081837181929851459158867252447281686852992033647503262866648945062888963099946327),
  (88, 1018511765555948537224482275916902725739425740811115601927489374653889451853828525427593105),
  (89, 30354202345653603577890188483032283415527783088930455361585455876327431254040426267),
  (90, 904625724126534883259838995572469528998432984189163382249779127224636647591),
  (91, 26960116199114333063690055423640506427463194909141693418265013455478),
  (92, 803469046075001290999819999298495317345573743828205514207799),
  (93, 23945638887264260604516750272961146626342116257045463),
  (94, 713623867638412377183717658599641620607649352),
  (95, 21282457260695839043743983281520150341),
  (96, 633825318917863057569253279515),
  (97, 18811758008758180070075),
  (98, 562949970257335),
  (99, 16807257)], [
  ]⟩

theorem ccccZero_ok : ccccPlate.lowOk 0 588201669000000 ⟨7528973461317819, 1434543988107636, 1482099477214384, 12922428960000, 5743301760000, 5873654831252544, 0, 0, 0⟩ ccccZero 0 = true := by decide +kernel

def ccccLow1 : Cert := ⟨338, 276, 47, 2 ^ 230, 18849013015670065423552708256824035197496414184570312500000000000000000000000000000000, 0, [
  (0, 34669663387120897678369026249744208787217881816352498978446007305916903961923902712741732730623269862234219122157919891198352046588794952212125179937480936109150944577547529941327343665713601489379489365388858498721932346223464016272169055592606527574954514832629352287800620249404575590680657932343403084895669412525000214698757218636653882324601495288511115384377308844196296125936570568121102095578662312738593066432731585750464531495770963502013460013236161812426385109475089751082371664197642605431039108801845996642674786991805863268664625099262649962694590767454715091655226660533238172255249073264158472469325952202867595365976602245674667776080546165439928223364864239263466290720229655049810160173638491014140937168805112928936332212849390802802460818255235139577621644137922621136626169104848442184657103779815406424228359682123938582762469935449228780929095774800934157472729380075090757122811125915294464379296919776444664155106439943090776943068402646948623254757454364767896018884960105857464048896792292955361590892787574066740874570592919397487098195753591936313991473628095989000937584529771089732013658113632936779839914796963123844789623014942623145194461276040876819030308792924681664025209526803352281049359258292540336251521661268300789698492952822384165142087902350709113975895182609813855058598293088600634518868957025296800553140661456545011394571852425970811761488440673917931984266864353),
  (1, 246342774709666639966833843187602388889117448061600860700409095513783370008723513768286272314066350917259875943144606162593050034024564014687010029103084719602285762914189106292378594287936277065252634808621639441539715748941319022493481267535788444255860801722444025243423626032811850384125718934622306370099447381427639063380448324641164122714098250018189982202282158455349020627072111495586896236735173550432826533784205379266044612732649195422236658808658388952227263569306286335932808130150154151970121381522787349941515252224674720115619842170407949046013064044691383654532235855563997775556466317426600713739943786626920963314380246669619138629631622204669328534726448078113963125589902283606208471934724649188843679104402276386567878410356448191027289015090922955960349186013918804410324800613336076008379318413033846634381188067683820230222889289882750338796779434869735364025543380737301618825655171302470605706472673132544213791707552703851489336709539680851706875446141738986780312925008663691422000495465684093137237660945193339054836402040285103480429147500358961870035531305007004447464920756141590856018212213272317615130895704566444646868791523847222430015605013333057658051200138706241686452603315270588289603915009531532934508561379841975102966476734060884625345346158842671749935703659920996731125535921600069539212308357592415327236811924065394427485018105370715872185185910282455),
  (2, 1750370690769405541451205317483203237494517509713893309000874122558736942840507664472840135616609919944578706059307692744603812926304186807776446450923548920302762346879810495837962451218574792230616557792342571826365228197213632359517143779724708311504321057742885338679340819345582150277534473549837247006873378875210101052889288017703706562955533243682211137598032440048349802645135124347937223182719702311038833882038583874887966464460825445017893704919191499074509462511928506500657989378667552329958719649900355008338090472539325902201453588492142536708322097955853164240609742247755759873630170754854878465351531152030311228275964528717303911020278108911933604010801332706492154937833321665196766559338390217624547624839708791360009445343994003899206923443123592363408741235400166276126192372361618034970553357929651357329072208428017805202604167471045843228780260380132793051184881274976709722445380799593210636611035340077532213245314623002751021838126806309762427646465577164777772766094956135996956423870501168786332592150898617080310719615956373512389004358935168286316960423124321666121333410114676052844671442552493387882999405893353435011817336751237337986817455219409904328273357692989248134045638676054886475933921828887151334917103652153627978452776706332104647980556838503090512528674729566555383708628171539400343175307583615105086887204962217042526987621510390514132),
  (3, 12437131792135897551440886257148599991456574611802162941393661715201353550529771499617767003205485707046155895194116373720332638628634831034790738974916372117027395538569653125463520746184363419435332487185111260617739704039860501151204230863276537714798458422243394769277392834862767403177020309711318525152090180620306377455287986448011186005796938358132387759255496746734691290080371035372317743272103756958122985182332228325833273632815870577544314591869973434331409567561824093933310488883617156332368265125157016430095001684743223096073830820473507235905132247608073926703367407126817737673932887466711452371381562557177682238858299461393414098752985160785539193361169429198953330753122668747300612035206698760877569219756173818041201040386980053392611889102593598722665010575369797646969888902166497881060376998247119040248568594950482085493287038421598859901463468903120426596877571640136516153272929130500072983298459987466898838992957256258425866058768442996445211601034166028853201148677744568342816076280665813892206406298902390962681458872337166403945016903727585185068546736591608007504220194071246192393756190979568414049165624956129332616648024249411802117145350095748971469386068801867728212516947454963643914833983535660701388841475402564952261316764078474830065897822563351119936712933442010145494445949653852486879451728278456717391183703142838207057735),
  (4, 88371136485931583247867751091665411361877421909143229622384735330352281938315936568654983341314488903934118690089266392251464584920731447218079345695090666744614761814841963353213719373857510813048552387166347874495924259291687272019574314635381552668025466504128891424424756698831852497569772067090230828171756489697275877796926028281711651898411747354575053913489290001839231721308259433359337316972697045671644283845098956404010505372183605583872993292047037771875818404238771776230340214536462584734751609439889935729404169853347803326029682725629095585198998091471437467016637918439540567831136907747061942838098236714313900384768625865159308565587431593155110884376095933127383338168120507896934242603540346016739940322936588885065141883408870550867662787026791197985864329957273043975913904679291329856278034351438981478903085615785816240788555176586129448762804238402983329776303949806545726840321867406110764059496018759018211727501319904632417111879472093736646779682987308234743923126082639011501122751841498990915387885661739698996556776898367692432322338093643997419290926640255353866674859602196794464750355687587711480945504138946787244916616879598407953196427342964501460967564207574405416923375819985972434723275433133372226199738600368639715793515166864682754633134948323218501106466950618098392528337027706384728083342365528241152622424086),
  (5, 627914690809430334524192226493720251041547597801747071048230959393892774317549314621480386771526759332105304807848727877594289629717617964516871223388894426482059158550739847393726615890283758951174436810776653846459710872037527963268916512869435228111750763731385599615640250439922827024260044958411916327433434685881336731916676031642848356983760619375623363065765332193558604397113210164315953796948811640786262585188374575324207465400999734469230825283482302068277778092229168125231383715860023533641876337013982377253314622957331915572110025363124176928401696013334553946212948847286416536172289026375366509839880085865458883523392514299809680022601068523294364953643025253366142650919247414953860034384123494651958739062085533682485611106147697972482496022920393314235127647157267078516652170215989773059291300393350061445946122470216805517797592757905310382669899116975285174438753242174306531142683442989113190311850071875623212305176775919680256339949935124013815156695733769609522093232994098045475465590232168960701366746880151810089217703201850218130296367406882217923437409007094782977949143024200715167943703380061999701728928345064870051634823106296541971866068107055387444093982215084558752275269125743364987664697175523926471113636721995989915459051919493630868894373554279736801415112697430587772245837306398749499974168302830),
  (6, 4461602222316900668802419904279476633075401521478987881495690426404314438837767757359247772594747227487526009837272964926983502420779487099742306266057983254441830628072834822672565848409105334945752736152092082352707158122751195344825109947844305424608185459557216742720983762921511775973187105808022439585396303740206297532585296264378260083445302224274253170689272935998975842132901520388912457782373704452441121654177710633776196867479766684064876083109270880330241326506020755894833369238910048676713958123329336851649277825212407688383891193688584855638635645031332571947849521956800462420547781237980917338176425956429645818867815267337630871385564067021038887287737575017602457101299133163890502618074574276732553379523901919599516403552355309531045607812040964634167995892273017870574836147045121620810855950253010722459446612457213483301762149599099787077913172800667420123560696045473529239451000809033425890621804243075243858840391379126872186876428390845353969658128950606191856421378060162469978601413046023297824649174191324643799633285267286881604346302720854199400863240142371809598790714510755627384707126250912232161645453875917679780828906571291487403022640521546732983626091745563216218451427352573130562798583650417860127696187779657179570299530837503882314436997077454056739376165862266404272627984027315379),
  (7, 31701590489183933164002979085292655505237757448916993620682734632540547457592820687176866361729901395616522633512154278370925215005936245658391969940183111407647449397535658183305186585763417887632106841181866360221215175291939625486926317050832618524283542594994974754179280032826055275827933896039371856441820112168317518329170186066635466797303182490525253248060784983401389369340261626383270210157929401279667456877417284273521125239481695843330130082259692019379154192691464373118274758943684678603702011822415846976136875136464309494385042808691713784971253496048380582890399082577917954641206543712292765762416209131157855117548758040425346901156189481845891629687184654198990025273723838693417339258037478990859431406807650471503086274933506226973928580855665868911554177012577436665716860968225873617585151421914456870792256175957572839745912288735155405400084355744676821187982670908810954629295211769397594206314214919387090809718407984106865202553902187730800369117758050855792542258293509950842619054982346106201427124359391138788170080254509682446995770842153866652589418720548138164233873970255537808460484431861514974310612826979822511286552798615320507559322453386380095504224180367577606838135975836367271238747951830038220695896576494214563288657420832402555024856588422807696060849287251827668315),
  (8, 225253348341311246116468532003499486686150685336237086322929703161865315462313366532334174235997902226930894425380488700987237500370499146089229966635394301076526697596134299198703747789547107683689168604117486155908630787024120149104975873305765919413684220238245179886712890271568136852152505128112891387401504858930803140489517389728998372769575428908163795313589510153927544204608051546637669632090204183893913074693794017900366989973418411660547136550716317198202561603831841616726270835213232705056199817920627360309544507803027425256808007309613471029559075703107713073978850691346437106980762221385054756427850073884811302474053875076445385880363328694257714557289664399767943516463644745992790342782807573279749385278335321975466175778181377388874459229381651310203787279284166034360976679829924252248902464983285533056924207468421432846567822710287055105710803844397684220838758993917843628653960230623178466406049009695512470085624349633980838645290306033656352766554782015124020682040971422684170939111654825984639723385743480141016506202231217368628623261383588962245170642798108365993774001484060450632300558476065929304298929475139502671586022777238587648828006685208905212535742755693139408890781392535229077151257564163295436635086739841127078428540157394496410571382711403323184078785),
  (9, 1600521303695581182441774586802548346654977857896803686251485765707978113868487686007811804500973822676221618801978427633423773815270146386703444581452475156002369499192172236225699661741452272307307457340055280467855644040924688547313620811293091033275602940749459292296655308061077511554177768915344098753916347696210231820327275824872958571415718359589872898948140617064890592790562007128852923415892946820050561560533665910813048966854086157671212735569926033450390161788105854275885568222386955774938142965315729500087687908681938788339550735241896511450641154561280025873620407788752381655546928281701857744876705239426053868172444616934380589728187720014728615732406527170666830645470531251765964546385190938949156961575996514301993965170006556344961431099504707551884222974300429694337093417260203617772914511724566439129070161644203216847788699042532771278528894133210280685003739268849146220579646470306654979041285608558069679663405179004616812249119346545899325604785299063330942238541630326940718577512560547819393792912584189925052222987789635203662428763421158764228619221015252712490878485363760432975625242819802397913959478935944982206345865045487304794467522080614143022433651871075045684815534322346791309236245425024409772449895282687689163372823167916439471408587267),
  (10, 11372387857701804012164178820416881497514636534850777751525795378796446143130706374846367655358206311264422217291627444761728141140154565297162353811106606514175393124277293823536891620601723732216523340384066503843425579425205914299920243673320577452128098206781169866251384150225174434142003355783459275257856885561197883449773910235144275101615948810191077448537133542067256490714740430752648048098002297621537775004680283862605342668346154920806247443251820310552987520140574803490704654666295111375533671813654233773772886512758893135380949496791178258452540849257275296747738535350097646809408958871059224867939755934472528538296704545973487581478790673477367190957447689255823299541539375604904910549672485711758761392353198485460405809301119929941329597890675588137854694043915091053827818230434835783589214762587308447029551573847287688901253193972989079994650020175627753482914903119543140294501214439997415012715378058794879699573584619998593013834934589777637596358146968600830052588524862115034773755670644926960085457054211972004946938819436116692330043941639768520360466542022497279614266600438749361187794129917384874934535569637779584626630748809528227390468781984222312321763569321750016619663703373979018857829839759968056270063179354040230120176622723640),
  (11, 80805675805363847616747668357226654460949337525127431202959338767729819204040398793483516153615698209935816132738945645724926273630860615761849557338128182338546374724879895435498807079012264382928686788318845684695372564655755200390673875242843688597304905888884504365786541414885664623156482063730687139424850937254503573468681382757553955554044114323567366742914924359320540437428380405667724404125367937165959908474237379483933400112122704121064824130739767657537609012341127392820572017244949672768922765539331250108808195255668445152117481433088942270988332333965866615327929418911151393057032229244350850677419060264643693886176155743139926680944955491790812307892749505540465608878876014092528664981541597945751847441176861169045503003875047040558873009071112472948355182789302130538356088624251036058627922349945352881928235590393144032013235413611083773978307956662883505406036334981716446788455339583937949027940986782895424237740461210419467196799369554778159999999323027436200468622492877824696139007890546900861389489257620944411167904284460699544054410732556943696064430060960587759684822975626989992180653742128342542974362072931440174526962338747550355373674903811410448688967315847343459184733769681705958807429069255566099953201721847972854),
  (12, 574158859516869651548259897973214936406445030493212522081303026537070047681086739952743273488633933325330475360736284398832127874576234317500575040598165673618399116583645248365277830366524827233325018399901620715975330459853546474780286780819293487335421175209294406484066125634666836839105613874286057832029335211064616639963854416049244062165571124890329931694416560783057977612233318649740883217627412713326577236289248982955750478482476524682914658589110726847604901567060603844229916726113669318244509764350391734728931647109593293635878420624073770788614953161512251365138080095897176086744424802392578404503489226333412133031516729537271847293618117245657719856552677090298815982189043266838864080506587037625897039436843504909915330311535158011496380188572894461984815316727567904066427792407730820613175934426798880760140980951787152169628495792702450707964578963730998023650553219324152106677006735401674424363266328353208791436313055438032159350756525181578405810493536735123439319447700531353381994989797727347207612927734998127782062262387795544561756884796935432576564706960128737373483208774585138064698838432997781903214120384247666901991726682826315102322778725781596454095366677304861136531989736094032814203071974774506928324),
  (13, 4079644068020155966879229211295516225323219078498571278723993504919107861049715353038488341671793572553855791516755036232894780387256860745286069236202064826233020629215141982834878080883277300709188881455003331069344557561276662303699586550602116740090403192264250311069887726735791750621058425524879409579379336115782568867614475152899757845869793903335178212148666153659760721071118316059346989402651308248881727794023170353595378958875105899174078122293783556867231976405183529580468734295903269911637137314744391394533321084094220720117209713067110291636758412618577916682753539816255113853631718274020403246307532372820603706622354870909861394181890061107745910760633793799279239772782017910364853311160808678695673972444516568547978794077923576432877963631851660322743298409564113072004962826017227892871450762607756761775397728674247297067728510711440805402205734593195845829102954402832260928593967370317854150739909241839203049083645576170568401130333817647206313972200753268911760861802740992398224958970154460745443807794027804880136151414443285785162053530254720761150380275808934353337147585598596500293310997054765889045743062010001413715467242954223398522352891395651846294942007071838441886090838763549141302907114),
  (14, 28987614570185058702230870233730657228386598081460841162908035819037222758607550709360284753812163476665772005821644343604466914053268032669209256626189591274801817840619420840901043454232971191041122562062094879346890917029189881075265493497298882204592041434411344703433767667887307699608772008480737338085328759375034969051046652686663363211535183718120679061404602476129076088334942909763093079807925592553500335626091344590771676045016433670114097667847258015194938539630580930722691834204619495889951517957743415326869190693729341888607178483049937452426252183233955269392037762203920535268023558288209096984720698953089162922823011709879369088223229915266697437994520309728150712106291208106297350787035257632867801119747987235398948029582166219525949862678667492745673036083773053864806680671460015247846824592145556792701003006131745718037127630524493878312582629759896663656986609803992935741517219272540047941445151434763124418984777664693057899403042128331632587090841708894117719021675284156372362076456438875878794371492484909565966703070502523995339751825938967331817383726846383520153565614060990982580139061501975696948324954843573688051182479049259322920233730976156182545599292763413708678797410183),
  (15, 205969389598586322891768462523960588074960739969731386359143498190158700528283125019586099951227449456793095846916545664871498744142769742418929415536791731787515529394876671467081361685081981186166349303775965604379585137658565095899131545545649275685150608939091971929498240483889814098068683339311756257112966461697815880789950801149241237990389547847205726763807849097027798907326306546132550180117885876665442421725709782199741056594294503200004681302795418781634414100029892798621431170180212404048003221800964122158953207230988922224008621832424647752377582202384724534681749916870220824222489653696641636271470417341619723844576733206027859757018989281768629602771845012950064780647712292480521323302493769087495890261988029948856458910764762862081283149114317810059175055229607646468883924753040535345705680250541960739618684219638319193717505169748991985683264937899319092981438208796864659609508668823628412661267254945649634165612387770324159836948354814425110420229736526448194223700533549665834364079958337410438557710253169925349940685806657428355850747568935442147145249918435158491504298547941744173529023630484560853212288656922759645498805169671031520524714959432959744987483769953455),
  (16, 1463500535682174493187577457746048907516188392959089884180510652741408964973026663042688965896526905345304895767217670260659891881564716288856185254991201331531524441195391769576029344684414334566940491582272198942715030068900468733510902165631146059504534725726131028476816030688850489824436943843805325521948407624235357223980363991339297328340688493477768807081018913841516840842347637491603152995749936427681649474590910971015070576543553949022713434422338840915034652567995669859765194830318168357393938249806553544082655145295667311870663395953504332797319749221179027178733277861930122851153940286972785453144236843873433225507110604562952170049976850952956190954431104566981882026938978632294273209299986211960576505305256122822992837606518685167579143700815310686862093167442813506937463618173527830179362240783897692442802317609984366111048883326415084190776636720748751241869596798779983569814048154985788504988927116357808609220974606359946880129975930232307082354502548398685127890293644902436694367106041896911600492863279713403311275346596985204694432873223777706708731296724530763526713545537816073475091140617280705034757572323986182741263888318703174361598339827385441004),
  (17, 10398796744099843843312509205717112390602980503893277018651351204009422452920053551698408724466040846900973063549270635950420369522111601333280257044515347299775416738010788503572920722351215762322883702369382767064927222612172874487945521804243370379371460826164728732669687123922489674217480227325476431033368439388449340469693737470459618978258394104427742427397297673803086871958695080959978106674767676250906230525507900857569656072197644995630934050881953403085124794586105209218126751340478849935734745101047974060880499857942050652117866576087865360003943843176299228108883525134232654604582966492362474773909606498307822357551675863333159868534510156885953257557816921670349706130175295013926688531078028578083222810220959272376357504794920704318472868163502026774361789990320048069126106638370614944759953423350931219319901776333528201923037040794742957910749886443750912475590612749932429014271026812539893488514338636378756629091055286581667922396960200276947580580255272409032443784183147366572952499252343299353100371883048044845357968357772190459326405772961129344085725907048133337466822848543138706221477807378459399862193459107734957446437440449644125150931),
  (18, 73887894871659254955265149119136313449040049078272410686816948583622081890496627577380257352971006290694142134251412101878176269466618473794598692766409067898617143569671757344770815637611006553149790238204152835982989860583621140846912011598443615265604910477497417763499407242893039965405536600865420602938857821502333965708641993831375451252500810315579417614609508815725908959554822395148065841928312211812412830095609456702516525241702858264367634794794194896533133449069234254253947478762248479254528952971611304156457577064586321939414876965826304626744614574649679536719104085114788684220483569212868444984221768810806191567214716065179427175809792676764389396707744102280426090042241313710874123838400267271515013952356395521192207483479875176165489203604029927844061727412290631266295223632493353871162094993376420691123888016139457926390049801163563401278485714271073713341492167487417441498766192264283613071707894121543330646249534933988262118109582993664057516364659265960413601424041758222803005495341251580531157018567591202713273461026872385067719922849793200007256244842026335248562692967102659226950608895813310148648452138678071478100337899),
  (19, 525005069616634436295506909567168303347557760775092182021360177540871077116666950085603512498060796720936182667937061565610976781688765937833797840755842883443571221630973563384051883230164083849088216298669016424462013934143706285673488392251638965046857595648769871583989805990406125356212901073614465040427445938336844944477675723471857702779891570199164743930065731204066345295834298633139282528704770042881568983941132392363588545277528810575288068170566155121528122500288548154784589021646812620179850860122963525757154294130560301847871165860413388960698558880224701917652839982910089043327263306668527065553941633106568404616530137616502349377692592203763396334252144273700905558086491763501823601016481678625360392480375768883650220266583866731777197394633140089317492069702667034214835619998651571057219679662204397785640317012446397326823974599476892328628409803583924609803777509982768314069865452833436214907699008393763390695262421494221614659933978101993014845906782480158077667145841920383939529875904396642765529892927923062522643855717884040975237074312433887160324870872714269383959697991128960961754165153727013721022910573609),
  (20, 3730385384533252848594791185854321492936646796856991997667024758846360136862095303098410514750048582193188783179046634796882932375359345214134505686984105092872505491861357735558981710469794875344634137794265999051376169391458193201127986016641379514502273164913289858077332937045910379625104987678799269022728750672519346270502721008255219478967685874687026227505738029350839790480409154107656508818314265190576641259249387817672446099077836909254472659615701638255758059161511739566098732877085898139880632556660796167286905919262766867370724493618329840982752501928427299390000709989899598822768943327233549459132479586645718402533793174197327775398757214181353335815845803245863794420385876263053443566106291423761808934883906631288920916682725747867795265525143328758262258111663271724124963551244627995661068127073906451953764090841677377468258442153704752996107067253619742762691842583536635592723431497413305776843955230716614745158804931520954637127236241416877701893327199375085430049144494879542562210895370846676362796029906141479945488551734808424861831871834709025867010487110222382987385081503073199393516386950740001),
  (21, 26505982365657508016417347007051727508558136014876481551049101588875772512651673928718384692260546715610223480858896286327442711974522248497510941596886660625447301895443940619820336553898662226520131481736555649685102547092144172332893859452279482372477113222780714764875632291178749111005465889539317949347667640385277438998220993996250310537502669736561431275175508157466025170950339558172405736643741144508912848175792389452513803143161204255694035649182905261907862802399277339063834324954071761765424018311866958887682195196547122761305344282233667497896682011258010351341824297780594991459232503291992990629078844630215906215193749934209834254443177447561319105279489939311672477302864843470806969631818165525081869587138277888467320677178057182346063119530186359583877884329700436787573237400947853586403117218994181544911358178847212146925562610091459117135142313343183176839995730233800693180642774387336508128232646293561353410557179118885302115475727447961599986568605449436221585130039662477536811822515103432938456439445373978659740568478850710648454628014944165608428684226258766734293748694196991752688),
  (22, 188336332241032579421026206084745009466687804539308228520504695700848945084627487238424128380107068747479271172969790529289772336870514724420722114906017883309966278882853463157831701507651176729894839082650688408798363206330919953280257029265097531638255029113656140999038031873018533069380466497046583280533608049618105717103027487242530288380512144901227822481185883116453007140125489784824749056069074587390679540815997863863016470582758218595344854756368883826012441335246289064740454399455925929707335111536970914644961075354151180338798582037305246158834651238811507753017333608468996434766357383077889382570359888576501097999993656705211240332204983633835626021954963773276485643231940181133622884697369804328477406388778119546128972471852433680634117801421171147002158396217759949258253094879781160756273739380690399668097147391319625314797163716329024959633552254787901700771303274648154574005489477719906639761940512205022096167792400460703536316332363082865605157747585248788376271573396109192353941850987974671099392326805168546739796072391445272517254224093330841475387429650957970543662308),
  (23, 1338210127535664493486153546688974880870317495431068469148561175791548870141607261803245367418263844765244180997639422012140445423757133798550868525765749576166046202863338004063334818082262079953855782453691520635163408359822198813164512140368582973609470550355070919572412662098902082656909346504268280004151904802385116376960834026324180629647117832101541683309064603097148499984751096184430345602358688860467449478733199895423073191002730329979505475224988826894989140720655662624535049143724787496791932152048712785970549072068535951330498091067613186769539012405805721577179097477230316252106903527408696984870079457915542767898170577233171226709027860839211543189030358885191509244253800430413851720706249373530444160071738920789405259131245492125499235564325651905878944960708169467459011361742106863307451181304998299126925483558211400616792551510746928334647183434165624903701068309079371414731727108430166829841415720787434186199007065529249954076420702620210697379974418524985002946023041772127364017996704877442101520588510286680535550591831011826120955020055787577769414315136),
  (24, 9508554850410636259185207185062259902041983362373887225861048305770487375394902058212987351867183212769732712371531292292135940327264150074532754258639141484124807866346444058531054239454235812117529622282258974302944014026353150464135752460269536169402261907315725292537057541856186181355137041068333871892206622095394524599220418013517393018553873901776837011177183023115933479976654724797173980749382514406899598773273395802782724153720510642383384515774401015839523705776658061945534463052528120707086588495233312396119543965092436635013087084900219242291067241910840558904613891573709244158046217723785763952920189362167076075834377353338526184943030522075284418411545553341743715764014059471620640422200483493078961010316385699293768932344445686533993719628415308500347948894027190616610647799067242841927394041094077483089040237505216958200498429356120354994252035956041532771489446263498146307195908358112853348512756213386863568155847087408756658825652958021029206206714755694632654573219171581402925383012893616735947004744523817465866250132490974238117769088348149),
  (25, 67562345765357436698545308111805666598868806448577737639461192783375675044474221367444409849178890772021565513025587480144451577695464195546525973118712766194880770359151569398158118243132973732070422715041921252797465158056078496884820711871594313673499683455615107821309504329975838610914259455372628848779517497969454528566902368521009187095343931885173823638817104772982229689948885641095259165562811989551758520443580350465017575016592208515812846171223439830637420826818276629801542478038390823869257902881906282489539337525034828037428015624545095746848719861951862520790186306947328671089619399730376405652487138727637445776292323562548757175696797331355103793705889243609474557364556853158049569112476778712689734697954083021361945400660180187743236513706633760916319752273376359705977205534489182374889968887849917917224423248168802085698208453533587068760054086435138805387258163852482869476357903134003844484841827501801261049162711118714360417867217682360663839121238745343583673773970411581525459950835025196731365179170685987968527263812503987795),
  (26, 480059339944868928985111069435771942429403270925389347492719542624511142353144218244014566104588160811925700336826050432708623657841430056311977900795630817717670668963247986469569058294361054578803466448575827405402557403534149904692332539977388092278685032394599174816885808993844183667322478863842355059286983717253282069967940291526596660498739281913840838731865579610642880154705989362861793989358801507817691745881776558242517971682106357361969483951758160725496189992683988838861182068564520514672518993097644191520362368155280519016421978492635823982168736908101734078364224604090433905354498336794932813387787481540404891511966100184263650560818978876773367722882800408268858581257811043027700224476684727416385052411234219019898260078525340353249145352269537243100769760031822663822603665857940171290433035844351056067018965023752363922359336001896348891683508075735936043388794578679336525110638387168162460436861690586438648543064945686026486948881074161233334718946160945710590707146233414347553522242676928444036217177434198148559315),
  (27, 3411026767316151115388656971815151610125861274450111775228716784798956086555280494423062734942591311067344153235766060793626931924233005988696574922838286296081880301494834288217596866092840845246339160102705729154611144363216723041122211696868675490738702879373528097182243421015671342412094296490766645457078593873158084690316658022813077341330791241445587322771370819016872247819847454500047902494648621341025970436659353582648321761335834387771346168332296549836843496942775564716385424775088869204822752475064134809785650334515398291350342112566070713661636067437068961413345326936339585022950472580447522321270584713921518447264351898646329558060724457114131776021451125134301172266017842417779821189490056334896380101992062345972513704694971275362709144524088708767638660155422778715915410926549600967540950921585891858284054149385355006460211251547759605638860243189617216529558021349773824853979136507523660781125788396077800596095547094955022094452799293926502062224615577393562634659472027819350814481711179806882332529128),
  (28, 24236802909997487030499435233928917981855457771090639875159786134865357258798329769597492137781041144729557524582944415624488470401111371108247105061922513130539018543848572223123460859233381691853560085566994993332991330442046681818071446179407327937402548054802253554258892769835194815272631505044150269562511780017346187963174898689637454234932016855776647352423728556067830537442712955709452433656626775906957294897803148946342977609786368411419869092961373986596284654730887778463842395853702364447718401939454420074410160594336028189733114783668712957273903043891493198205072993105576658035080107590946034555506770786581892985280522702937864227086391836711930255169935009888379355254143534994818379472630433763429509907815001533571535420357170671727552598303028933030071877446957375278882432666010793196784249997768147780946589127835941723296866742571101747705321576404455815189248042738847965038685000220104154866653205658386762785021678566566188139438321634517976640037983777574583880128289258818768687450561262),
  (29, 172212842457479716745889925518958690857512705257836954865238866822106141248115774328635240932648579421947641240698661246884799925290901762112462627825397825138075934204441155537235352278695058400995492928352312797336703414729063025973740125915919406462269222791421821869014456537422538071330048872512110375243649542776908759571873721154399946690688358726906751545184651462732223147914914958601090927861511487911324244477406956453274811436787561623739058707205785689651905162715198163620078240973815077028348631246855544722704250597077282543810157719601418960932484381052186628722250936627195417973406840026626870117377111860640775928029363952396911681424351079762551023516737486859813722792515008572129267270387382655169705395995770416125340162002740091775757976252049131001562363709651183382243636158363364796357559487979658469140087816509290173539610990206691221447326006259049361967884449807806619837866303810910518979351886437152979199853900528703554312130686917792986157463924093781217561751512410154),
  (30, 1223645842127607727049749012728047793938747426934106633675290729159045648430860171122242554507754017989978771941385540222916005783495320444220500830748206234503612209639137770531898413243930139067540302223962902398118781482090348518267860284793751236963069734936637344937185336401501971233543378563354838030673829100982947860898333098265311112773818242707383430067016060595592983502761196325580161036592477160386517256154631407103568912935403335814618498708358350676965287495493992666283006837872308602200271482623917456523355648296837019942285132653878174140325590226971015206711698138987435469736822388402985930017530784044029371901270204618784206095701040727296881415690795303378703205241018814156107429526663456543519562627972749316692860820865551273734117770412694868830764625014548843451082776492073097154016500074280315126542135993750486910765163382166791304732748846761906169383354861642413741114172545650840798651695928841981698106359679343496830461523380846868714537005421335385257),
  (31, 8694526642668220454266851595037108736638824005169870429734336377400763129449928862316046394964203741935042813376707757007835694079001033033339502017243249799375435384541345986036009302068309090341389138415897991749537123113287496197670096512366564219313643028901860140942299440791188453897173208157446126383219316131934902080746021356569820517093335202981900736084356115868449358995275326304465109024248465608777938666167735852032197692299203660682310119160705223387210626275694835087111573640293248156599966753117538956366359254193418707334324367497135885538851671072759113134316190460975185448481626610702270521162380350682569909937155270535533887301060923028873299829058571908264942572835073600077924244719387748180709754408188395766714744734042803632184927574216904764933311965348510871460287685447899475202457556545721505919915374465016072999302575423892568494067151597809396963963559299973633801133805776052542056856789149275616857114277485682157533649656355400842042565),
  (32, 61778327468205563763112675666186452876891792166488460436357402566903567229771914969063902809155335247730838072589476134111206520167066237784606400518635281566840229917697129636422980795404023200073518313615025418169587987288249281886508132631992141762919196629168966274948356277656020935020629339060222139204507500181299676574625020155692002653988021186975043031386777680721346929998855459256551844614973802116098461114969996334749109347899267015310134990354914030035121210896646832608688718777825507521784066398643055729647364269850501885517046039629328617648280707611060688642779121511521531048099096946059985702995494159588301214264160814983221151708567174676947445621950597579185883539957143602171551813815487769614438019867496653473757783076810780858888769287493126620767269149703949671368370889240099109722706921304856054270539605752662225096987636043297113790263450615231984920299760977434058513017301297640838123438536120829669052323863446114685367038058),
  (33, 438961418099421250098492035833334433028282661599124455423445585942257929657528698677025877892925615581495705957518368720906256329549437380312372173695474100205446389947618468144859923508278308191233338061572236328583954810428119812730387626459049540719939817486540549928608046156284820931294840840026140961104115235836073882855323945447111119155291244715553646816742320755562249895090054173774077163523675411571516304010499528042341145874360441692370034081073844097192983191293970824349042206312680400158679923298147650015623796579635856216565640146113696399161689018341855010262680511659896611107352820767006887737977231834348266826193575151775502186670421868734655010424189419485517404809949133579493568134760599277467478015105301591397287387089487730061636508742077383007138027464889752430023285543958699819560309463535348133110997316534561661007787475291177182288260949377745148223709624630902415636722770529853816577006150500882611697185228495),
  (34, 3119008469094959324497239349464439563265348891712310258295172971132969974359587430093838221217521433327815614387065812145083443806111044553918334356236201900042078633728823917755760842199764995479209077171647637730586345202454764182181091502308231189885673142374433197180451643904211926861299565701032612431505094973517159096270209266414639862512025684086469176929740658265370336559159246179368832459355940517216126091896870499968208124412676045673540285576103184332555517490329851464161611380943725006429801779019174172672902095578904725794234982293851406661065601711891728166914184137947193136470580183571884077643610239717438046890865094896992816226358042795797956427578130737962194519559445090057362310099002570741074114172781131272366867138740189992710622158255038665962448869175110079035022611638048906773217089326022281447039564111000523760627471708087919654432172435145434074299120377008958178804418549929701536571678928310259),
  (35, 22161888104896542902347102806462257001849628265065279168021369366193837708746538553539822808726863693549202696339263327339235188205968857416780326419116433811794867620852925808746369129663129594683888094917617463370521201699537273428440837380351746261096033253852746704953713986471171373162999640989544136228808888049234964174726090423155256913412501471892720205594832392201807530500984290124170895397262811082980433443121165062487685399928957207241012612616041726518756003765763389469913038569257993004015925824450301141206333797919309680562000167764493839533656231008354769361654038339326011013171651945335957327449001909701371532919386411277695611012489592593103411943954974869335761218385935664885107423878471198477397621534070620358422074214935693398857937189002966050031440674061549630999099675902273098736389204077313211133515519618416847349584447361662806489409554703110472744485684307404341802240933252574722656),
  (36, 157469686036624117536654685568906991490576020460887315039296434564120642880500174623675653213630196301758720496900873281299732214264742377571197994392921045032060104211189794005650591157512462776565258301656182477547369570199984944938200025748299610918195648806181073844028006096146806478678567778143421518586543082679616732578250986751089502627173498566508608429566425449210664903870515062057229327137480708845468510401577656952080226665615202497583423381351014778550302522552556546843228702803202702045976282964567499768801506121719321658037694117763414872184557460555095264619708107481636167829480271715025925575804757761191447388398816010238705580178281499786832795210189926019812519480514017430173308996021054041832298628262715043635133802149940283444499920842139026203017078272099470957398520805305064480425097099247007879130610768473997492870815669265043029723980366048300019941702138017427471602049),
  (37, 1118889415157469482669616564641806572599421233326831633116401822037180429564530290233475207725392382242253010083039109768064152307436688556458633985307365641631776783606183258297410469293086967301784243756345791194543221324408825587242688653676478416217290492839574325813799803314529459037307846026256835563941221572765911738743039180950280393401519402915306926188389160179656224301775421628929717906324165500018636548821419733585611639549362356100469003898034687733048787152362710114852064057413922683339613310887022777375998427211269937689488904907150693408894952466654182296032286872079591976966674383037937705289914994286268864952978100633357139749228395880102240544671271768114322691814955059488905015037298868676737220340372848233901724392199402677379076500265342254399231469007922139404992451669524000203349377713794432592951659299751225597682339863469097529409139523419123325835980289),
  (38, 7950187460590068743255305354308906179024214348251800523686951450750231839240671335982392575128531449324874885199954446818993519538570698702945335762900680561186396627748132873829053361398329736444056292699725867084788584722395125845954230596223612907758781125548170548809422110384513324523219536432620695263529072799046414988969907659820933492166961402797137899068430960070018664568990523569497447262017734317836569139434495186321558622041678119246869038357426995630632044656052893834222650494726765522014943264034438159157551998524322853888719933960455778602391804795472107861675306886851615166361776876024093012406492956204435810766290959330617291107110077649787815000262718306739269192723640281347509214778360193287604790351556712795014523138877722243854844219050343557936551296646165176439494264168372951644163522739610905844217199685986152838330089111125828757247096808538),
  (39, 56489479480533111251754301593371864804454775908850198530948826563859425954495004418606587926835029018412192309028472769362803657163643568871303101011709774760919320810246325051402417908252074144883581345053797428226890422723692536848391161159267517943467717071457702707060534737483076559868164397701983245864717104284165545265342383539328359003409413192338139287572009077554780521486990922727493532215928008629404538848908407015984821680085723788822224211968892208011462209040695745802592937961661206777863455050333819184003248281132438958679975665258844360489723622774177275176128914364668437374417102991966708768911948214837960856051824648763917746933079671415301580752006901045704866213360399136148163405594509655003608586426002433823260572006677918734814827820395564478894227251394658332062066003053042427743564134557762622961130047143123866118883225492467022),
  (40, 401381892917620399797970532016022565389724092517910481567958147507080653003406243460962257975914930472158860006206799435537417204242015379174568330794484259349412417423126875714007282939036785371084060223650151245258331462108661020582127045196811386795225474585800223047792046828602200728371864317353950135100337569926161832418471057070959424425331353635277402556417279786652949038130425816244377898929974224003656138540131548090639971995794127412595699230274542545840954249035754771984068169559402952831246445400178593318962580429319992927853858181718576649260755032802270854192718344520521526058946781979718899690972893021066228680612745271314129457316411032627358114039694445672867588384184146655035660039340783352021387650994977161048152367593622885773788389668096481703947990495971625369400597195336343242046084917105877208224644219189553456236),
  (41, 2851989882782535799762303924012645704449113939332324332326309583912977906574370787928971949838192262462817865342449859408712720240274161505841507354791163630731975455199225249558077755829094608735971833536738637670696984557911413711076129252138656920451112019405772856175092377843652678738725375967438621356926356715860172749354401673774547332381149523771524675997513796449958810419436726399586881300498478445727060578114139697151844382510544146820839020943671406796676010817839573865379519954784298710223237907197655694592655917056240802056155609546549690065725863533279182299649881292759020000266063270723883426841408040691533005908947904126479663597651471376858657716913638355165912034223948694609158609183865009704501708464958898829656984937709755713832429262096464030546540918438789136545942260014252737955719635291875539449634409),
  (42, 20264606936724304374040911540167866920463623183453622774595072427764662184119762769746642659912028694171353502486353615159321749958637052954497245272528712907927509371569565030015366999045728908413166163432625223142461499751508614680401715844317502317357597088838227893324935129499736950810014679628752839923558778692714821612092734586848171708824142440560011996841054527870953971221374950357314187984198084455860430962444222987342345651854139750729875942976573057268092645350487057798060513301492132487788199310995911986642507838179563251756507995363454236059845206326449123846661833724906147912407375804389850752545080762332083861284430195178262165180268557924001073789136296208690576884032919176635097281690005813822676769807920416443474866476902967979547370404080610715043760082845225771799260028084880707086894075983),
  (43, 143988692519231906701129102118612954942475022217633002516344279994801966780356130255900685170274959248866888845600112852873463608877365892300995009183343945181317091706102680106591883195546649491896333216915602021124021481791863857577953263681594929260012829625513123021755508420498807771970841104540239045868607679339826387760100200419996307372141555040650201827633929745372549820749582050486108778318749602672141274060849596325180293275119016715109516844728017995007743210261296378283716924528948558802868068353367744618940344247215949597836948652766531726953600676800281518289411890408446500624768974229099730076702721313251510840805595065982016934184838539753902525431930761324770066017538240860334601743868080976662594121736926772729997482750090062061422524772543322135566551475376749894414536172274168),
  (44, 1023101195011349110338934324592322546312139921679097671730177978551537640188628090640326356963462893992775724751710078328936955990097359093489579671991009101228919261260604970023222529075802510045786324559533182033919442085078787296835758908950573911496060245260045558363144488924239239021317315563761145509418732992307764092819875857302257947819839204268077306222636433078150109832611909985467466457133048757892626311591416731849957542958966447062856253029381047253568461955822755019402860175063097475353812705530312109417463865011609180101518381093225878714828250891887862723704082879496789701488648200769364346327199622836443654030997286353280048286334487412156420894844096906838930871718677004024285436594437670352528848770399108628893310786184520969025239916901166175664739154500901724085),
  (45, 7269571220627917613931389870119819436753089701704039326061334083928057056231097665775041299436501375856605909232471264608484460652685464008652471591112551871766237789960065430062129922141798032680174170774457626475332507830987191915275228361615938977644604231819413359223950407392376628263127263564822399980242049828804345281864977606703588938744875683723956748261863450706329724719051361186759135817968513961062299854582040993359095921240009130691171258576539751708969531672104023532688846525208891268895599052820271595453734298013676981880277153307045772042987041213712938634125860879329052622087279851183523284288712624655345691633708723660928821275088407883757344007417106549106060321560849838009513137684854087706100231306037832705544152062452490250539846444101022279486281),
  (46, 51653410229078514347601397603567501709797864618451792225509209429845164551630160089068804292626434288540379989971080935678205468183573600588349503873875447878323171448111143840406614900107634740691697991437611767768046932702317540842186746233142319520536992000388548250957443020624884569369739701507698282494593845432615116887020896693899088255023413128925117427236220214317912643340018786524928971029319334629879884785031970552019166772427210680302528208862269225652319331658758714530324909139714130492821551087739096070387168554733772543393139704451381703934188386109614071178358593153272598032660292668264259530292547813269106212234234312969029077733239696331667006268422218623406714519469391013624240557270619296227062662496527657899362181789101674619124450051),
  (47, 367019554155081908302814480319167257319164325355499956241865855800520283136948479019201871357057841923253107480967691853935302988415213580625714258695152217911050284105017257145942850609407191569669350940322672632113556379039176452376440652696460470121331587070657045934824176492193777443529536897916310222401500571673444882140644224699394462176651027203947744669975216791677726124093160120528306447888743124754804917741763543063328622371554060272291469402360898661368689968682198394423109091562623724840050255514938517012173056515075567910656560258890808874338253893287359339537509219403421350163225586846897401347014207139392693835024728737703314267276172892569921251350239978357528887271393099880385856011004711890385899619575063551947204911180545),
  (48, 2607830780868041446061159265349028098904428854293513184656673728060527275381364226939253621801084946151072383322625767149356356273523357320881034530126430089376639221990984180891310919030765537161014598936682249281884756962315237805516796680340577632759155514636829093253115407362529487275832813249815483423956933352180196721469257419383045528140401649209105461323681935295634181495881450820850466000103684337860876291717763483046015194137013111838361054116647314295711990460408657323197501145625213228415672879873611624411955798012585219981716459517671575278312319438738278604628533422919401942783773328768015419188681429617009258419189633801301642382430521059577762629285125202662152317280676955877752361441305810182188274591077106425),
  (49, 18529752174373765044358885243618062325086475924916223225527813611254595652023370369500224951771975740307655537169934001080352148516705009632808545223025694705287535847828412480949747171517883628886233335374994381421041753582535551097506893898733643383785802520340137599936393064730417324823658274351431695740433695222258119365398674861454559622229350806174536820527565784145199168313138453637963949547432254862872132678478446934848080276145168332869094226331988176310886380105048457632604206606144372641514302300416386301731907629348295506931925832918062412271633034534030627154552013071859174690091062144214152924157085861136332412808348734853337453396063528401033144808098600050558511017248293445544089715190847945577320),
  (50, 131661808029361999987535265032207564140424522668952698904318862185324659123064139759408596942847507735818601289636722846052474290911920400832729057639488541262539075393002608621489140351184113686123354622916304869410529196734851049927951457908095373735693309996099682955645949272193080399673567129187869809746629738202767282252550413617276506686900904733136534064881380200500986316523144128968598611710966261741041374232796480201446501340629736633553853024051627708853971042088935706166745207372210279387988679219296983868930783771576823290562158673283725053865552776496151981083368717035113202268362850352166938828640701937645406716002716991870119993061091024866876704141447432972064183227390576673351715631),
  (51, 935513412723040005314596108350198478408007379904295667247416632401699552609842241390997210276898695141010818454323364731170179365566169391848616613631253120380100011818139045739818693858134353806366340584242282330279020188018781695424366142132711023375392533899095401586952380216926264998857459829953243904241811077917570659692693822952124351318122262812162045967505603928775363122024376058553275524709171417264538383359598596142959465834231251859298824324447168819370844152309229754453930173987378736934181085792637175178493340901267368447920297879104234960311170311254837040321262280434497930721829558649228615803540401774261267525004185051031680541016408957098306079525137568709642423108592),
  (52, 6647222596164965617863601525174022401699910602021473005488990057200024016098996638285569633201795042273728406366514359333715098110758950832294212207541023949312540131652594365089891675941273017394556523428234523758601816169232888818252471348984428686288267589654742160842228904962381497797590829124613237101767229631693279053156169623588163767267792175432067999510681895545641251057734158579549722084970726751874577361334676434228495719056621144091946347431760558727524415276432605624953679257030840221395316710221405961190939383970653054200315146737204430388350781015679650748131263022683949595053142908766617512097787693725205878496863882597469109794669842292731943786815093761),
  (53, 47231357286854103121694958568170523006556824455667772649924460636731174348060918587014194203347407607412283927023746851050381063477772966320895026381958753532302176785268504884642389386443909725183829451840688234361404156203881665378950712413018134569140195326910223415839144086756143389452325935737460852591738673510311653039892931858467525259502431616993038264911034734176141828881683598119228588973026369805544610466816063519359688685447395461284344600901720806794800655217987271261293850225957891673381260281100665116065206336575446207132782217371230760983275146096196966314840053947109990598234353311528294970714977411311164440212389670896193225169479378565702),
  (54, 335598978202640574307444570707805006339845195781970634188024378227392351025587961218524676413907515869063158878763121663431383692093768110631609782667245863269798512141085028307054653529776980382814080041484312496746558957524505071578046661252209850262521875291850316392886758311495562665824500645226485204352180037919747037581124216021622552207100293429548842149424147203035758098575878626237351978224656598313297899925954559471859891465246078481602099597130737567352067555640125964051918389327423138444740003141680615756212893747051295774816421054209259269600926001182083812656931452413097076118780737810227653065867491335376560047859257090772538155),
  (55, 2384574160903984636003688782379620917233825867547335324242944544447833337852758005508457841931255594569544943949053665640410569699365472646092780333982309990408729073655444193581136419449785933669298171379214743050295701313366932444761583102660638072344014007992382389541514229980474216124990721609709800909327421164111998331182199151844462079089532147442098720334512175156297078802949809830743699728743228554647594806965542179743824174683016747156211413281515955980771043388949552534397026515930288794746486745307359841360099799022679786205034788204654699439298553429910348283139039018188598081490796723377450037120492734961352611335240),
  (56, 16943418479115625787710256528000091065128647895697978855016918555518012853561065332534888147819074811149547443490927357023201677977479586348756613820218014212857069568169966391248228165861583607389703956242954059566670100989325280402319693068533230712784149779431854338868188039549552356883099911824945056131317504502581735040380169825339172742052458776792438377461538746600594802705236504222089028637548354718626948159277746711321903788670711928163155728347198145717908518457818731133780973593772559348636636353836024913225134712535721725226665937074060109593892813677935795480490759767357559999918565280250713569125747575),
  (57, 120391611890947537055268572105324168229178789302172263854377265929538118386232031594933004175828451452716839633532667929267554474192380807091524363911759091793807323156993259910755569095921154555760181271161504969575512795976278829085834411931790910151437542589345802518500583447014998397378678570895969629337119259480879464265757673892760894444382846077646452036291512052535626818943506514374380563195242713519105967230961411780040839780063639675659477827837070410626392460051592937653212924367955334038231505816906688153861224478575472975203115309353782655555672249529476734908561727813382362998253729330191),
  (58, 855424028094308587552885183372899104678072529654573565213462333706801199300621635468379792992325948372723395515668792156837581354323370624632331467183866553206424554426343175795362975021360220492331771031281682687087613845520758869777699553288064386798833495769644167775199175721661557298996129261490656406619291604486836524310127304323392357225568664808014111555236475263135595245355564097991479729474673782643172450895361062080610975183878852034446251472087499672550097880447177706906768644138416708534068638696016399563514438647080593721978558109051440411307653251489441916357574260224285553),
  (59, 6079069757540456608400301437507672223373121736748818153060729824718293688811262945551006765906179435194617167773804726017591451385720417082970179224893647575140286022675690164408903205571929167518241094812655473902160744797683081440634462360402296098112651501738458184724787330503045919875262766723954798672754108106247724854762074284909656668269790508736414364782253014848635957154444850424860213917898779332175272425392900337676166845042764520992944137244327924033018998124889560336853378101343701782356499710433344785130469684604681843823845954824499460035860685658245871732268),
  (60, 43187879613388787403015663792859899827335540937651420077958139013414081469578022198316598692891568071846630467625491497386020936201341263100289090011377735246859631206496355912577041542112333289436018759283960298768370747815998554581618878452192604233925597321277574618537796617911714189871462501285651736497953389831576211048920091898214366596687986890023011739873699433583289862903830641897993873274455008979603804539641699639208589539426582424392467329919917701185098331294203346512388187910497145090179074429663900631715066807892830183048929507606107295333238137),
  (61, 306868320490266571998812523312610013808374843684405991050330469551668178092441119100954793193332657731069045712352836852850020400272514126529914277972457619678550312202988773100069752091022619840773446509493939153553021076116173950741938509179824388885954469857391467231487563716657482924034420810436578956026843058489965014133898994928910796988166392335295534999828289510403255635031201535167418704385749867752943175867262324229830239247687376243149507682754798301239589566338121441277569863686413135102581259018201275671424448105599219642617411179066),
  (62, 2180431025659208389268426441509627306731856904970133328025649465315104465020128464920937543213932871308797428353155101122649067408197882274824074941806265674502588481928528732948735359967631249277446759669039088906727707392134230943792725490265380199594217950181513953186623239110095034230072388340312857543718045926482915734688474243628210515382743194484546558671735710872372663326338652992620819636293190907315332715063273855772887919793195056302105218548959925319330411664591002596849037666534143544378077234533088617041136928120132403),
  (63, 15492890949478608195868981829165187832712642368009790440039560490098530569102072122908733534305299938748472634738936498936784810159508065424466684592420455349216517330537341881768556567830150073735189617984425496960131674863111854776586062324839323345304961786033933662012389849744323413540776383868359218635882564263410305355254886488508886343058623382852853654976463377232960162660612142870071838476142827742724430964118308590193631019419165635584402640579204636972200378168874737898658106012345953208379325420920037069726),
  (64, 110083635377336359911350463177340221682773068236505348612430951130932887133767197565141195009334529135684642158308496071198851457245294496373542403880636196555037365316010001954508604623659388699830858091670443226706264790333211949185010017333155586163072338925217067789171606160865146614469661312942944267025807729199509601538783611524217765121829218805888625208404370573507941660195441155118306658152436606300068675725843632480358260136376261999032631537405190356176125688243210605657932167940376623857564352),
  (65, 782191102649351420392667970157982585433355345564321097618465246984513991237493847256452092417372253043916265637687374113080758957273407812997878605731863462303249881238999147644201544697149815790185638822242651259633146863719959513394769519150931723945847050896066811177992110291316065150849825307525274324269824076957315724456653293534509783215558002457458267552644589682443243955840473337066172269405103879960657687912669349788483742816778826609857550429888878738697123171223389602486251051444),
  (66, 5557964530906458268838315214911072331009113340827863315069289477860220204734367628244336988805623381748143121775462013368194370443296377030836955978320502845193547275734195535839555424816108051871654691366901351293391549186549938180496555955042071237360950916871543811559139470999002785796159265270060100974769170157946405305048073554061016361178337562014197849941900097506586801090227371867124232924613079065084038562862790533570848003424098480038772510379104303666734513956565738),
  (67, 39490558802674478488151388653206372160523459023020691873568859032065936055651824950280306249284441001853674227796545186948840839685495327982680099105398905441728291292545287536429540093530236997348855510612036330831153514286843154797520865340414948253071520075509805262510549495204521309659616711656497023468416083021734328103209903540445335306074213263858442730978319816369883783510853575843844505860898858630691456017948056416776447792375430547583509385525343290752),
  (68, 280579973064706766394526089742623325229359237902657981036760481694044460707523314191397375411208789004681298364069561336193444960666734011759675922668385984311427273643797204007707503955412623545493878472887296551275681754048686037528424735132655644882570243161941406698553586608108967045082009053451744672906944681149586650519308752166715932542398864251794885862534758897852939538019494932481697475900540076734313746925263338437638322208396274242214201),
  (69, 1993763709744728655743084191700865507449222351046698558077774304468068657090999916187435477009897393076760795935477052011912942368545113637064708517884322391905774366535023570358955032453377380282538460171064216285044182251678510513183439677446237475980717388313949358859406901607774080841731109768028523265424861806485643218769533238919546954708401021424770732595119594925037084204940697999248134490414346710011045875472915885818586826192),
  (70, 14166543207812258173200329855837486071577079981120514465554078567839065887020250467637683708147097627638356802299728341445784532858911422808093388271122168081920007831975090852699561149386594140342344287861995203361463882979332546214258760693288063742752067589421891349375450913292082732323079230454933525608679040976969441299175773981911906173866793718460325841593361470102049335248927675726249859996912322034450101379162260),
  (71, 100659291716668246662303009268561627035717409577670116770484467657350361779663554268320839260083872897728759987217411394249197890800921198643129843663928950452903068858537975853174034507799284613883704693744688026250550790888974212387728722574277942816195056063896903474305044586389437669924240691090759138593676844546897443736296220101559890208203483410860574521724727358323639525762134033232703555066821244760),
  (72, 715227654321110677941043358778227295399617603948939614589863454822211161480075434742043249497115446873027033375573785669556829852700308024002000829108917650182449118389200467640149813851541705943252501838707843556220091223058306537117843629082253540103980080837846667544752001544690876311985306380122954078595166473096555332212791201270316807229058633460931568950458996643414919673407791864469036),
  (73, 5081992791979678190172992450088032595941392669784876479383146332930993623094486798664738812917948153845831097588298486041919581503416788457861804994914457587239925631267846051068833345040839870881647370050195125747159517731606637701189467671622516867873432795065635080782317820050880047544082612906745751915840651781307941919782088016912765060506077855103719962513679479573158237651),
  (74, 36109768628918546268827342884028248206084987123156661855790720555571237962102052068398210617963227347681252222709212985459113872326149746807777117495798225418106054533113415325506185461047225103464919972914182980833389857824574777466811304443398604140513790192426523758442183240895544055156832872339586715282302295406410766392747491543753467254789747312447733741908471),
  (75, 256575733637023044904889438996394459026447579837089922799730025897740953173187528818311487936586983238033904643072933662584772899620825927197067367103974847697380301088536436149563487665025150312721105429071640222569073725250583084969589877541767738426914264615126587699077068961476015649832150683509070384352856991734282557445109472412442318798795940827),
  (76, 1823077425147518651198705548791764582689133937268707989691019933305889492489972837814099769517658243778302672511062120116125025568997856154235551431659131842799521434224869699250269516175202405979193621929998697954727535491492849846450553339495302398192306536873305061619371372713926938672166161861840674523554692837491557546867325104154302),
  (77, 12961728016070790591711440100529005646400146530102680113071866884506565479440097266114563570795516050096005955110473280292076760550802915178959966688586379480035945909856599411432698189770432317746781604411602307478083385194826947880684741344965739959370970997704848850228712301089844325269088503034712390488154312583021294616),
  (78, 92041888504951227587700969572610514750450560546391158450103238612717084624240555938449094559668543981280153709751099771098524379831271206480107048495001967250891584619483910349395328009513831395023067962608853270868385860620974127929160183487419211412776687537705833713893142214278540302720454036642499336134489),
  (79, 653132617217334702682598822599130691693792780361572780475134255222717422509102179537082656990302305842061648375891107465927815629776680292743528532855396286328716697088459072887438294517766297023333054061379994668817234656088730578947905882158926260992878918404438865450737223203280711266745239540),
  (80, 4646927766096780431795724017038105172474028998396457402575794252149114099045102602919047576180128729685597134734707552315491761527571467807043684095188582370427304648966852724104833002875729825604240358399087820755915394675151106629634205137076791318302109165083621413220278561918775),
  (81, 33018408195979312477489616351706191530453571488529643405007342419303618140940108172164283670284857417187606683019356231691186271480246668950776429855667145141265423448666337255365123451773141192652643830077688464524743722565235445538657155102565445997402096621418413074),
  (82, 234609932433502198957383113234578446733569916644332854798679273752154473393350132469232755825066609751921675554368672726230411258912573728564137754870333451525197906479633029249214889042323940701861349397092205243600329137075835431957472082296696965465128),
  (83, 1667003608219975416510540641500451085277814536253567255682857125728437791569482137375118518159854638117288094426694265297748470761631833923839768107564664138784774328518604530642055836072717888581052037420184947891146059730417028763928147404),
  (84, 11844796619742771464246660793750466660333819238426715949201927454998520921633169494975775376508878834871022346380457498375073154769549726338154040776997296474584605788351339903851860557635416079803199757741060339682760038277684),
  (85, 84162174424774574257966328792989225114902631705789145861823670164966078837039739779237800457964464810265489387813394506489315459196981231751321825000551055648270151446565738690113017908521007136100349114090433481),
  (86, 597974692910835348995545447702293338804707854388545892859391432081810639469884047265651427552394418200667724148529870427357941642191157075325356513563489185974898042479034150456289535310202845499675),
  (87, 4249103942534167001004235619526647563692723335857186572045200871551528348987664045484766601216811042806535954642585817808983924862222572888460414059394476972132426406783074039763860943),
  (88, 30194810757626513600740533219744906230761095529891636738312541809325431925618325162347560648018874911219227899902655315470706636707738549258182448259466147194668238911843),
  (89, 214524926879083078832711123665072631449697156772336095444788165293315798834493599830876647628960556714932460853458423208322995242102570650777617150756713299),
  (90, 1524291284333991412681239923209404902388821933777953502943463862355735277894835560612988356184791967921937073452029957833586457123294160842579),
  (91, 10830752387844834152045814336107215082033713470344479764366502056498017999969013709625443438759823594999705883845244855679042967),
  (92, 76957043352333514054471442468826783030442070404511381061522748681739471527199358987177154361458812828161867769958),
  (93, 546815689969586165265557732392671639198517180096363585399996698134593316659888000237474308182989496),
  (94, 3885337784451485764708912099103514516761398674234793187538800339293559602918839272596),
  (95, 27623822950652625120223471007461269667156502063134343744756695073651568),
  (96, 196159429230835160168320650033697448427356679153583105105),
  (97, 1389579477754110489679390474852105320617361),
  (98, 9903520314283112571826348503),
  (99, 70605860689111)], [
  ]⟩

theorem ccccLow1_ok : ccccPlate.lowOk (27758620361 / 200000000) 117640333800000000 ⟨1505794692263563800, 286908797621527200, 296419895442876800, 2584485792000000, 1148660352000000, 1174730966250508800, 0, -10885111216985055006, -16327666825477582509⟩ ccccLow1 0 = true := by decide +kernel

def ccccVec1 : List ℕ := [
  10591361539163008615499596298176219019590167198512284227705006510828788499597971292212605057475819580810244494639340728586128259539485250257381901178143237963225425295881366885576626425583939906580838859673097033457818592718972913849253984217415064193527086902330522846950448740260540997921129000807047199325081552117186753131165420744977192196892191507617638084101658709818143660015192667154157331553651269807945615857121917544741933545764602227379829826855742630482486346773966602444316483351969882804356515833816997304334778013726060258665747114637975454130395050273842719821958350836359875975652001395384286099379540379026592786943135487756569784735679846778594222079940490549276886341443815759868250882699819642196642174860669476591289180000925145307454928565064710468497390079110711287174635911494240673994469842853253567191518218063836669167590169834411750672855850258376108388117843558882586917823294775073108017964545562120598798700366039688524482617336954545024120615205002698831527462433468356385134306810492570433025301236108557397435840474589586666629195516122893853135822044664998402920433941761462413891605969216324415236882766515284939397023490491300209406845042749970079046671596830612822970552064138903695891312879581654630904287416055754200711168]

theorem ccccHigh1_ok : ccccPlate.highOk (27758620363 / 200000000) 117640333800000000 ⟨1505794692263563800, 286908797621527200, 296419895442876800, 2584485792000000, 1148660352000000, 1174730966250508800, 0, -10885111217769323898, -16327666826653985847⟩ 387 42 0 ccccVec1 = true := by
  decide +kernel

def ccccLow2 : Cert := ⟨340, 275, 48, 2 ^ 228, 3702267044189515594352707606953705850654251810936103951552932467543702000000000000000, 6478676915848949977638070027494925328991420392974146207603430352798936000, [
  (0, 43949019602394318601174758373552639569604200148163450522524175268838671695472324952239109048345601129035029101012472786632095212344675022739606389650000333106805825015088571913503589131105431696228252452944532715374327374769739953394872104747696614431359575070916114845085895527763633892073015980507380621472397518568354150675479997147824308943880258784430612250877395407736089288088159890675773173781500887955670299049170293778387575046491472379196929824661519310634523580445117670944787944427368421885342079614219245532782604764869501805035120738877060222395817796926886443473057615365995492412933082916598626966126184049246980082146835808071929990838652256858160102921257160393153547435321574384546337967957892129648408034814026999050522592949903715837684727025605011443816541072857073456987763881101796754850014968145450477630804398291183111549497634387572810999755320640577066704867606448843090505218987766875440984257324307513122918045003860461690272531557308758177072977198857376397755993681946923357497681958839234553540619398624282747983078814757603678744765455735671547589613645416534188023442272934024438433117365148796236622955834813698162958777132293980896706197143427727459294957410599081902700082266685597383436690008117795602828306788619863303214386556467051001659971780301792927942730070872716372162659637975832773853032882034868515367912878313870187582574563637253588564011173252441780442345236081916333019092220555135151888959),
  (1, 156138283111297648279857296685038493915567746400870790547236029298444439927718794052065433488418494139156438218614902760757458820625476874676490183312400533439262876181062116707715628789373043732359009504973490793301564289661270722141841417777353035313234484762477566037837710337155630579406568006172733387969226694978231833372922999195903245411221744755113416352364187651648717050944835322554155382625556254666074507503692359022460204970981163423844746168641754093106426052190029204144599078708091703142911503337904905639429196562976899036274898245631925445560545903191429918853460741330714680690354009161956198350141866393417045111467661107303893955466636248600973715553208668862500810751293315302788974162200962411374325002451753520740029307693500105129497762796938765372477537448296590221974840393480662436562040271331617847732915360712437892949718016059264899948843771950183767674219716141141122680528333748129322005859663902436091569874497340738368081853080654413345215977439987978622971796480195967332440364633009304116672892776209009177831112848341341922403992849089461542831178634469194577507896214575741741480268202135342078991486178110287951897769379465080769273016481798594502506122630809567647548486692478110717912220736394989583483451704901733419950514168402146388055566357069539588255491146530789281348965836410191461813294322917985271323460995880938917910991898793995705199036638886034813336947232631700507974898712),
  (2, 554714614193932392111706742655786123161662961202460465173735337119548343884757563831946985733287771048984364196600659348959848299160451367121212764997391144042307190147856723632812762072021379157622463832511423531184125143998928319773738811805606134065987894316611792658875355440271169476721882684741648543454805499146093066327281039373597318200473809795171168896418076453305062433977476350260265096287597571525065110319011754586982378314625003964714413173466569752576329435949451174863993231241562015643902641538524860099819721894552451079452979838705173679528570418213700423899977161544444624098021868389993684123409855220695958832299922072080933453609075330927062812810546323504608131200385359598833414525177806013222832858850580324583814712093481302425395198082132123461375126422305965174110012268748147088076084947411531044300739396859768505434787080674090889160603161127720201368523905218924527718099639265404029901665755245153173849407533451823535114834285297542370640647869342070500716360095073863276637987847733991575557612351396914910457981307930207467028059440979900373251066423258262732146060822816871139476144012518482119442936535974092469918780380025576701887658292360103820235031606795700422703325342371023095924659286155848308168251969436262670143237605886628581429530881571571112522198738446431121089201411979727074706461284588672350037570552045844138422971487543231132819429091712511351111525369743),
  (3, 1970742197677326118251922782600548971019208118701119563807273884459441948178778190765719006871970234554359041678999940073952566033960535048689833776988207362775606844419050180005274780219669463904685702296344134832467893160427925824892221592725698351890432186799546105059753490174178358266858221476769284336488466151449916936043908789746982538591114539859020745652879392554115437025506494471064597898892864009609424489539121893739689195834799330104593189144916898992525145714800694144223239085290206464207432118299062323987308387229888320470147109999563113502364968372080090920579244906886677309605978216686925023447702931320067760651504966788432491788292540757520612259403570459040709993170582732140110012815667541265158130706345867968707922990176733437377609304704667867755741154963582296523909429456556645985641481884357417135902202301321097242663433834967669103878836348239602373455287073011640099084723673860188353002433433844037633301705995044144744444819481808825180549697402894933771336549737073042896859324011403304259629023335949294759630621994722865257231445218379185490848281321807443611304787274595785658587839627901783551218907542500305031534015367138859642217948451853719945725172421747146845500360982849681829843599613920391005306500893415033434540961970007878453507824318769034816942685588991297847421595653894338129460983589598105584053152704861434097800237816589119714201716358777193),
  (4, 7001482763077597291541236998049338931719623844450377167046324811895495086139432088664000253726640070145662524601943624466644165786558396047064634465066968295876193131343421443209909182460274915383968839483766027487003466294565002178233353178276877494034475876782700971484998745640229079417326215124914938354629275595127822915089339674010932969666208625717679153271907664307763684038550923567207630653577766513634387345709585154355090362711240511602782615008133046966043491307746153947468589817415730964127928102039615714968423015467088620142255769865848417748446909547706522070540514326780111769565718565806329231805013294536183463204964521688787138079650162556804622593286232617168038957409889276736416685742456265710701999330975288463973671283501578792847097326568156707805827267993545450411395504706324670999039031308587133941423845189407420095963941353840371826493628074776211381023428112945628491995805475452023057801497499352960647018478368970301601680904474884771613285185903611536640751289698585376585617368002385245684676588115319325640113022928267310491619512771615144484052721128950853999952464679528563527278705119156009282718257656701059834352182983031037483756994861041121136681847712350106572569743240943560706752797390683749183074310877004578131707189831799158040368487645418074487560868835881534778255566813045947561750947129993828889448994444906959077550206536311479586),
  (5, 24874263584271706731745248844727077123262378665138744627615397978288605688491197665956018806845117941651633350940910796315437012733702481405778477810607357529569871797080764025245109967715262273111041197785051088614725879111691395850248113308163531993701831104349681981593584145230265593157112837604853394818069923635440557079317145802572978892983162313074619684237052522386172102181226417744794911281976672009612732877394616872414060275055750696404024966127172867761505268868484651451008309995584792372844185646404626831714647680657915284678493576670400620695343579097131106074883754805861845889442722978543670971074929612957026215280894306104821020763699624332873243461898362460442668833412438957924742676157423669855606805913394295791985959179848931176221693663711157084553736249017641370529325166146635701374430238462759449487901102265965428546444401946507365582739098962840788143883987756711564839366903467088040024984150058275829847670990014280041149546172464722212117502270963669722423145884156701340054010972827834354749058906097316910652719043490344681675592771590510343691299991606302718112486831120376135595565760874995098786095330908525613809046851041990035537452162068537322289369439175202976633248768435763400870043382814535933979234026281521385449492824956588814007989290749901522377314151695905101187319965353090026231112871270676189154248274831751026385879),
  (6, 88371136485931269290522346375382748710184945919118292724510241463904189777985984473436912482648280121957326861414638715537771365984556471004572206039317850381456197132678903747662049594231945354328812993905553529372195175062292742925737842955243060383489966101115829309221817765418887726477267018073889872294530273211523428954698253319917472686706479160654003385017478668448165347582114891787840534718983260667878965768671339880543150041556592374646777348065831494685025073748360289211540847219236608812148420219590773802278758283495071390825040823854952654008475192802164115895439073052903244981955128720344647860245684026088314506804964250721090000761004731245222291363048559981156672772822929163530363369456094288641526243973355284310856194237423086428356977658596427941845143273672756170112536403833926940597735685587931788138074905755569368957064933576027880657520280871664542092055067916982697129152539728116224614250810658475623996620483915586354396853797741657804057010794795277583884667076783229938612926080989280864852922102413549099699074848074372264818606130163986086449060178146767008384010101574427711709398986117921509060506776239585723870857645710938825518159073694813361871790061357411349265186840373830577822801458087614318143419939951377020787533290227254079767100145162459414213435061209161933684149247713111289888900418739961162559583046),
  (7, 313957345404714051861540586412533907103022972642333205598204829808427916609833171474690177249320143027742126220043921441814386993862510062416404708856445884595274172787427991461922668988267646776162456649787745233960622976011190360145830326531323748117604628279961955964765657670161980699926190230193423997512528089288005821884990679310361165880758317397870263659559710928646976463768914280765102446776921783259147738381790782947832591920846171249189243647281289769172640957891814395701325767307309302688213895129994846872015255044308963741554880028271561532523314205432968356909578841475988033608947199557113734733449661376227781931990332287924460132358342723343005183675669354293079691110614409987101033871348100635193776243889625808295230804710170696144567756778012356340485936311825242456463757541042605652714435168857465120210524770731708689168062930146365626680540063053587097576157442896047358697261406525897606070047915972833801054374305624349919941742624313073210518316089205785344391483982904534811708128549927449036868533735268713854171479876862195651251833304361272308627201474094776493405771014927024548190455324290286629497060829482132722724818522317126060020466324526222094044024492204906009341917872050261161564890718090026600944075998435719336482202965869105108613283064954047233930759822937974938898972432749166230899356471982),
  (8, 1115400555579221204501793828064145323625132715889238791916933129193259177635477813384662262236084319171526825849944201616701193282842873314921334557056597217519046718624623159954964166299228971570405068837645588260196721235096531987013548734101079471690935778811323283757663055606008877459004820779126385499269930996413701996550089484027006520013117621077078823075338242350856294039583916523849005499012091082881209721595339872774126771961731752693060693424882187431957303022265118738884343630498119759692873783771505190008282036428362507611136446571100249709653606140908150155475552145060866205303224681069729784091756109645545952364030341190029709729032189627848547981790367898424453752568344564729343687652532435870817496863836991075124799557290794998498813249293694423711488840220455674344506534689459915677663753970530165194493031344428566465794335306338316074938898664202279702479323428667493650125686350828396799732870932222770377203315774716562961462089313558702397553766441343262059380206235501949761113627883264672006864561788913799198516433673348444412318275397921852693716890781321853793012207102398583093237325460434215341511446440907934514169670648395777911953808703256967893183947039828886207486087678053583519882175820292808050398269875619948428719287372234952319590854661854513219737490658344136241571671053690472),
  (9, 3962698811147977567166101009644347516502812596269126246945571025126358074741218350217358115686334167142423504388946966726659037331776609669734165940866408230500745969107449021395848474898549048002203384816793544128326710059677474349549977012307896137734659943888632405987105672626228113771853484019812041317516724789865471656742676442887758313162279883493668837103363246574763755065893126387589122527383583656704466773116410960364067652268015035331468528929134402416681550754702643397768493647754656001714224668262943458648422773584097158807837055680401400203147225425868777248123425707133267605965677481869156567603186505224508866733632850263036818538415974680536254046815354589207821351732686382220664067857043180060812609763289317513470685843884679451208447447465161620270156826426974636242490762641460300909925258648240657363745215338660018114335311801589932694202886919050373283420811712792336205875381038049613043543525703452347929949640607068529737263427824424734974031915102505441391505870952636267373377055579511108845006612433232014401733693367825271845078924098335555885582046865491597811545254625059261548792971480630743827268564772523125270386774154205415161592668944971958281950576847824803570026836129241905947594402322778588164111636365141999628747407618043917407042625383816466844670689719505487728),
  (10, 14078334271331902865988418531164115518527681255902934078609367207880926612483611612957806677491322817467737345700874745535657063039874719256173576174761178374714570520716961873193180449559641386131099726958158271104942496626212136443926048720831641992545634909352673030426682056718981060520495596500884289804102649914124900540966899639116762380959556149577932547890017148684617048796550546191835131685270609026018807259728928257263672903508867730188126564108742170982450894246301203331310318851298004662201300366611515932370005260591332978713867661114724995877687284935231368176714634467058893058184988542139620805539259933146287246693916391635721765552172672130600603116623292037830238092970309497994014756970816547234661924170287921995612045903231330035882591305250653486930678540257679755513502525103907598869680678840522485230334388835429364628636248834773452449240882808612492047665001070573576920818405881368084059755727443263697768529715700173930011824074657306108288089708524450272705292598339120820111596698880242032155391247899890272207006973634261337712618167157150795361396451761296630441868007530439787665128327307741058203386678042068438007349941857173079447077606200056234069759771636638995303381751110717292095245538671472459821066367638490930013711951119219312414557056943400468655115),
  (11, 50016290740486734257745179246260651425444581743187830382342195481785203415120514751074353760118087831540235686170329714870111780737516858708936794810361745749074871205432986537774163192681228544831053562158972557518296148183394886066312131175458792051052133606577836637077060468228769314305445383908114397710494191043298382492760605859971152412289788877337798618650123768826552975934893270547053407332295034987138415353843115330401606976574254712029500880595475832963954500123664159669020158990429330849840922697901128750906342921653225290864702006750027799343514668848576383077595639235533637313047269921461305987239657302004185802275788816817503301319072982194137705654317088577632766781025138754449970632830424038585261771326607547524872835778615878303767028232604193116199525832856596076732364714052719697932580770699436596133065715255333482055470020017634384880700345977596109198820665776541284396214130882510339966376974213151622436529656155875321592816509051988102257651032049509552847819020225820870920713837232060018508011733878846465083414791498306099827589002072696973555273254715853528684813804225199998033943025172665439580043573405697605819527352591312407346915089671318327305226001216656687720308703172995777853490447628855480551962619085463625817936849083108318307082050),
  (12, 177693560276590056395724682304956371291537579954489525209673061588540148405128339837263620315512191749301544692894242239448739852506096865854590426483706264115225984122820933624805309494221680075926373123488518644899193691728554011053877889649614669092144651539134662288618447117115456640343405336834975524617948867491992487652121752880626177671787178927194358882539739866951498409055981520720522536481498081040885501886464007447221854326105413998474978963244841127509957990113211257315836031089978440301107231727193976419022284213690287347930948158938468255587224546634826227081274635922584477166744916448710408777315676925725838917419604312135133697841347836142343194176779477977811861163631705162474962184101610585021734874438818555411353016424506847157884525932162229112697625562858945744579509641852195826427415671554620045246758573061984963202383826500799940897315113184579143552592612115083598035769212654698313328903836499673775467176565529481605136417050205472213177842525295328190744492155596686977682944885549653416190437353514911114963857948824799639857854678067050262475747309894239180127400448678429770517766021476649533294170712416796183870434644685148198067212949928166670805309681701919117892781911497667674723543256132080214242144976637448279277346814960),
  (13, 631294342229402816697796171260788822765588346113184370347460954995541272466056301730297297823009315219396313200705492269506638311261320017683287479646868445016624904235515788395229786684567403926881653554921963488325829837743112348284202555010495681432146410628557754369559490060630951824724574367162116603133395667497632604900879881307669276665794630247165454011112661519254401321128341711624585959687148910037539063193254857142384262007480005829346481020407218171166645961083231405721262356240522759759771568157554171096130194716685406470699542869742263747726086710037272258508545645311719386844692562516352712711193574956795284448831503428829800400228868319017822848921178175007365956563273465102467870033118647949909636544079628170465581722373253726092141309038729416429003608502052999025247324261996760009299422085689875309196815725660550623760989566426570898774757203440466013124752942808645247129596884506781702946152748814160753181475640811318558783683111313651703787305150332676303173034082111274773460255072617322437915093743341698612266860966548750826260777754694512601413038724649257871957125772204758290264327068446496343606716781891102174031086183917010464813479614368541621533563887602284013838504086779185700535977717667275447329655702229251),
  (14, 2242808044987764108305567723760701717863702571718102030187590432028876968871859493009227747823792560286444821259750825740866770114669750618051993939446090227647175507018045718162824111598846685616281457828275497560231292921307829249244896343649958869872748332102190785092379813713898736482659843387146680604580313726351179291205452110325652503365270152532475746603166787967587393743053381305837506842218473086212445835686765340912221436703523438047248882027593929610202509658731668068169221960427753988399228830052129151468261095197632281523394017067441408087833696642034362398462897599067409622623218045544381053944374878567358476126692980222100299875528140865041373416794734157632246558474694223534200593936128750546544240089287552847931149090572610466473406992895419846450322197796912609149248506970745852523074801821532231043605752404063331359876017951699726735871905713526769680984727641559053592509767449240535199759298102477865412980036092393927752819326969303279211020881954852060617213499095222126226638046241501875112391293803703026962247064110722652325006602184711453805941619076451675523485032766237580913448866905836788453219638059359621037459924536749949546007967896151379214463210308031971798608082291327154790852925389359336971),
  (15, 7968054820351838814593640856864595239235264549823140643596681746554878439910265237791126569105473317419653580655672236642789993005705800568327885130858826971508252134647805629236104255946658247971215692050278469581323652734676370860658977964107315079090162809400046439214275015242630675973739276474034993342479389408413339093032279160311096898787242903312718503776264001592127767937602057426010939220590501357555299979237123866659275040145071684593664771167381821010744872197522006326009165580705311091822031244748519907433952890453352827053932795088283794006331748503322856930956552110488051139407917225762851641405700260969916310381634129993220203437995983768092079491538538469210638164905430123231727909530235107706515388877976269134191806176560620947054461923155584691281680993730304414573941542754426650233263773477112918461179531551239053293256462974411262457839844184912159516770622340523939129148391095680497469761897314791227212073131160502508385652845557516562745065316653860396003236276608571125315345305950234411400399844930252946421933894762040600866957378204865462734779210056573902259282221771554014947585007456330852736383822504434977614480572136115696326633414582171255445787883610586765664657820422807859234685),
  (16, 28308217353696245817906324161117838511903810265134668368070967745131007556370369553033003894475626538949696988884738504693682702330276297811577192687882811852478110317042696777196652820955082321776920241909373753403850278943812036834576661711036973759267265382888591116542445557761154526914420120113542600887186381894447768069430990295583164863926389749942013760758334702104039395808928826681464375697071803349445681164262943522545370379186571072897552261050403406271143570847678958447659444629797851371516971738517964143918806169523588922630953264144757074107944425785302230911949598822063132352267885117135213060542718847369824663891949784530442990158364119935636550816482153337656475354886397985395863912071870001443071813082730127849819473166388806758600537989425752698536171324537146170848939946822608738801858095910733823407108797074946109465095037612762932461098092521201861375866305141430485958687538538766985775624288036828720762815562142795562945074936992334578135758456585818786373397306771580538156289558116772803027779212121302480852863994648144328576471748973587694254711562905556437024823299827693372226424001655371259815772003006639638576860169995417277384138556872453651981689111543780955070525327),
  (17, 100570991014934370674560850309626120654397898802960274417030301915317961663135371817344788652012366371548553325416225424315895624763481308065696500022116159698417846623513681823975481953349949764454077488875600711232731996054280006912581122268286962076879251622804714157080921171717302107477431800885971529727602579071339326635771152248556043926043305347216533716247467770038690324979771545329665832736183292351928515700694609102776407883301901150307960506084928052149253443960530061768576872894429432713986275059048444860374840037537946671589668180078429136988780175426952291364620604340510027018915098032814900378090053000780863248079349329440868230132074903004125880312226747255373150520523255621263278276570092727990067985432429227534632837122485238092508350445662034711724234297285558637704735279495278437316761705240703049217825883124826243247662026952949675335015317773510157813421707659467420458122723097249501327682180639227769278099496302447898426924716877458790186326630308638051795600894986395118213279559511442132504067659271992616491715783471455651128270897345261978047226117020878847648167504127251395247101550365116799970215390745952706342367925674823650545676220517595705672192761950),
  (18, 357299935469279612741505220255506776630393399004051469815228994010600828464884519458241846836892152275342935778669474304248838729643921037283500134566336073468040951294847436347391317564836022937154640789562926975007494592227512236378242381214313198949318006649950246786057909973384697087778265938254383160897562159138642884995972659102131342605096423722275049660373381044140014147624229794283018590074668192140248754768009733654262740517634850392108587975031010371977190607257879107662729077204891836876338196552842035988772519963210567312332442313907547962354362708616018871321942929132601301819149231898573391725241309349832826529136637807729553227210494128399663789609659007172915479087917057772825372847074790195449925445404058346813226914960824160458646380806794470160876170140095569202667616808324351674612545116941962141217063080156530581929411161751754994242900170023359879428982543608388678347214538024466499720048975133384848566643640357188380854043246762920306969122031227240989454490125821818622233865273025554956207168024685226053952949716343487931512383339466249056453132855684602794460023020691800411937120660888349491076690042151680413349986652884715045861783804507607),
  (19, 1269384368176245959395150558588669859695344465376526209054779943081108126504549024823125497465019300614480878037203670332937878969007576541692013277782566748608990388238934498239750236155492679453864046365996302063785541701888355078815720621917985513177338593331448135001205671973794121099505931653642017505418823167171621771193736995382574838644617402296414819737146218772513058411695602479255698928157304849436725172787228525110279913077778623260350249339782697697788747090189664654887287868388082719984475799562330793199297060959200036677248879859148567151926373052948646765360669580785001265810184786944062989202775738154974931611798839021472635204382989545752010846309072094126452100643831344499101738886595719353714935077376436007081478288555003240808562690119915162798157924881051010742311444776075711658916808574056963807500370293701552155094344923836880564863344351424610031900572196997372692385908560792555439790413229733917932104363951727378621941271688865030356663165872882320272627582356965806408922059609438637729659279113538668333044648593311176192786967710752272121716615717719376267742812143597149434293573235388922360218071180641222505671871179458413739),
  (20, 4509759208475280301069967089903904379239010557173110559342816625449430484112230831865721460847209203189155168577441906780257877219524603666272402612174256648135150229844237295536935889669978932139798808854878238832190865899066363478253978136642336640624288411528113353914213490632058242722400832937673049746574431989542197283049549822147294401889245571256078973963874356814020879410860240736467470867969015733353633282786278347168291393663887672219737543385714309699312519406751905588092511821642754625772212049960539535218007717386967800255392005124001271959832662854095052043551985489840020510872945114144118220432288193223042222522659901140453708968983017388757721000381801614649244241845643878483613601169514957615530247482309151389080779760296229077806963237616350316799572586735421395762474277007517063821861235809258851099160871099339712333077403270486432680372223079919467843764772365867750759723630646305606656435678307765650335841896912290894594197811227048317466182482784087507567450972452939772478654373804202072110625609783319652720030894578569945279884911725210813352097519430540917403607458626563452184121531098266071228527343398593535380137),
  (21, 16021883228046648288049786863848487011432543428656936942704431232552593417011864449861991751399141460510897356080246793274549570610463575839245689667832991253512629236227034863400905266691729427425599321715435749128554975219650951039141870885717703696566512523221598224542602204753593136201671850693195969553442905894150136062711156224696226261233555894874257849800687586596227394918007115930484670312484103023837675916363195025854465669322967558137421442767305904458122668578499608330471933805784705964931310703508092184881825544037010802043149846768483826520424237213797349431499031698265177163343695760927349884509665948864858623303528924788867853303218341881572117274804886295576193478766253365194725685317005992589604860270328734306321395963044317356073652630210848929100250509407792852415535813829117777983211510075407839821207569833822136930872213119211197925580876264188766465559911750312801214278284848983386830992518329978210050276235202835055259700122144616081254391749677298705860074824800509944715081728829121077597208724790812582796701957032236082178217788281783618721011435832152728853268675474372579589773146379480673447079758),
  (22, 56921163704425653009088262284137408465620192853724902727038194241204355746110402201474720719966250642422474960420075281546895514589185078406079170801343384519035219903623498284642799584147464507276089983209304050972616558490518388490338614755223433215913748823115159795334424992828959305383184945020180260529933740367065319090755050337360715830738348322865413574446663366530066335713014346216468684761832526463060289378532579912039736764734289953356082810697094624359303857994974514422707028352494624559628500767482400400577899481074129537170189449994986036115709842789280296516606708663679399986893153947732535391937290355884034636871428742838875359387332181335782001742228034286895884012759782038852577700686676634014752895157169722841664065892246726378067207072850186893495900315601183019957283082542601500708023563096922610935273466564696792508167012622528120026762070974346741339395586609860934296124584065169631348103103794977399423388120493781469973297529978591222691526660604557215674386218717445647128626079514580587836033128449665455425077490093918165183768614058337248355696721557589241091557266866291202509911860288),
  (23, 202224596905955611024865828280195306790401983105592479232726340400959992236555604665153057220213480106131321575877064354133852213002378493477488656878091831614875256242802312927166705792435137209269837162998731338850742926926350112561484017255366945440023512805064646851410371851779501426706689703744359393404800608141664571054381933492506547312267143414793596794701267857796370492331549810844025851346952210852133868980675952752121536502962359644403412233000284778009369778738925698929842943637846010677841110375770079385596529932515586951701629894111021753799127166097116745754790886149987824123359210018031671595468229464514187213131978130398161480058482878391337133278180763420602534170547896937116863243271892068522751379788336585150773502240780626116431360734781867879130852588070515598795226746687571841440024133512319340146809374302640688233704234333634538825093159941129430023716891174412655997545009615658784634194182126241510506243778320499675733121492946519823317997017104568657136405188159552144851954209758254739309375429286906339862116032608834811529931170930595566368806849149081169081945483048631),
  (24, 718446091617705956710672142982944975575682802359688838561179443985724664966894679559528933050054563760990713380846883795499723493546180500536890092885215251193029910490652103505982392162043549019602691643886348212315238263413030919490051383344483878488742825095536510499844104016342516019310814876899509424443901504846702647507690604634581389525883439660211156298284906528362747751427377753398930723596424551786125861179231201168506429374038379308323540049643501048262667237011755870119007847027199465982701348342475539585199761348838911193588749337864230502775011706180607782564310230216660081127518717785003811589907761154643433545868594710609049929061789814689393162359072096974810413158007163166485008927528029354640278002143633043365416364722950587253252159788966532631148545911301621632175474243910729183754697035840505669579839211108523804690470274125391124133542046706855461106315143261217983648751937191273583160086636932839382536907178390675871501383072376752065449055818253570977648252484720227309380436106305388868637836534528796690319963519823909216088282568661216839151539730155739075),
  (25, 2552433257170981863419968536724661451805749349964931501941790147418564921211768959270344500109043331477500657453951998212001341492532640973606019429919056381527385533204531406179836562261474760654370429173629280888362768790660659276158913635965605477863528908215707537142735257795002913852839305873650487143056725932287380748252574528152748755388020133254396145210864968696567610972069136006936381361034316301295485006677007143798761237583554220275881691262636256106823220310426543297890128744416911683064403934367658210360230318905016466650967170020586871010620455725444457599588363878391883445843935390183014456133182089279387703636064495461622502293518158751541283992717331001873956752955677236655774703516002328090552711747791472508829890595263628580195877423065750714735052544690550224069394311989142928542814503830957583413734140760821678770648809610867869681572617892840679724230669442034836385318479766357965220384913572534736208997577336966846054389688858622708263922992029860831672918928908341612989813850773194409614672988620511585162998653982540324771663763093906727515160),
  (26, 9068064546976664045345615869735618395234784890094722852304913337259598256923822618743176553427877825613127300722114281907086292635628936328363426269766041238174449862984283736990961092335309466599685733504685969624471433538607519347163631343242822839364916267298354550755382322804104962486262886855303524486882045212064620571073926701150751879259904821833251223758102900098592702765927042694045044843792353219860875065950434085697990197682171327736131338013830871475267556430408497130880436287345099926055460566179178244138110340833024468719860187349298311213185375821128266140395862412870788893270992415102870054987584374471460935328314113834263648200610557450780974286280925629311485516150882695877524582691367857509111098008767069881283810077941458791729835762053299477611469547530811811117619218506351508153647584428084569171323589834025622997035797005303347824229530322189005703604410049519873418027818039771099492066037167148593857759781209521427875671906617913343852864380655293073326330817996445814083861716841953596109111178743483554583665127766309624033768498),
  (27, 32216236956289861998021763524781749463103238445031976165584038372949606654589469834601805415982655076760447918633109991234627137640897791047457418140522303687586420020012699146451926816317337843950606073889920149814289319117693999898142400554216514923976603981308778376990866933305885954425511810435194538051790373765123757173787603356965213409143240385497134661258039510144130972680593266079792052638047997132197483856775330826679148597324521755262288117412292723333609373137433276891778226796815350157928351498301474714852889848711858566809439263420625417610860010285482031369585365427319227964407802443481443750636646582064509529631339736109680388137005914612494387403143090936188395913879002747130608889404726199704156747927250670845223348753080078837252024796750082124698912531870203756299728532525466318686253716016907888551202784873496376218193058256013180287233312156655681292216903116003508999919386221785029687941601864195531307344949245030167524945313993735492271367134622013496085106739217245563789890355552274434673637237964660935144200677924),
  (28, 114455065714089208476955273474253427356104366794909028665675882571169375879168089559415537650985306986938495501631857637461795869009474237176180492449736369653595028564880375990678010311645309560636424731924668484737750191050200731359402798372497640947059778917620780092812765337753280156113601848014982231117470830730306240329078714137491608256375800541054630664400825920947917814164175269419021075250391158951137753960851355308281102329288107243469044755011716267888229839473093730861738901752770322506744882074107994462881720648022193953423072287670498617399662450276866321033036585289000283016409682924619193070134747484401419231373783147011617064944010620388891375494887667734989241519177658652100569801880580122394154425273707560392736650577336982551114974367220637142067210763476103617112819808433422800838538163200999708040744177863262312701623338449048611316867157738782788122722019776789171209036641148885749676355947621503604511172406937772660453441454878406484519066488408712362323390511406127066220078142006137321455108657489061),
  (29, 406626077570454954741859673938104144686734207928801003239312633554821609535001594243528635322725640658014434924115413847544728887091441708403102828472229055369883293286050580680187557141388081981585685217126016765340728623831688993881026349909297355455449748995134842083281203155337561725799273037750210787777305281323436909886947773288683179140009776375367919312764168809229184353719348349233536503952999808089758368242143597591614596823893866317231614357899756391388795038015774225287750535931894460942475459309956324665528355284158826289841649821940965526062988852360827856347665914934931712132387800245271967478183184498404905136988388485478743715082687270030511453159684205672536656969885829664881624369141761307591060310618750233956755237660922880189310372961662882510025782179240155315444143160237954404966975535370111651358706970015607943661770784128656556312685586638761847813394400574716029609516629670045530026609102230994694887800013912466244480165367567983251237815230185056709615734782726418505273777396099654004),
  (30, 1444626027941548879389656715546069276168179515204258494044519640757511289739022207812499548346617306339801213748741751213967875853136234505550339519990875166369393792224535349625305549193416214335769533270207887242815175387759193288373278209554353610098406770088913007895625195398124699854962432171724888503593788744202561465007899407199540014531829536530076171984018677210401340702147805862349575181916636727946183154454106425702060381841640503654043478305869318332438867150016533014376996165188073572507643858719412637034079281997589995966818273934347116454287051876683336986215540791294897766951153727900926423773617424074205878596673508656330849826498150037405239298087714233088770106365153439702726044728825466737928336236122800240811906821974649423789887304455063597055359008962134200800480194560452408534998920901670896888888811052913276236092408419691414126108335660837263849249986489791095845045742755159022017463012495277025377293618361175453071238950287709653268156274994414658086230900906573592816602),
  (31, 5132342650219175366251732758072660396168806505146096320958233389464435738401172970993698001654465097987825320929770215167247470658779312988968670352381816770159106678202982952179540278488249746956924336608631775623685553132717983044647404302935564067986783004776878466605834289809766237224207003634771907932338847362322228775375775655227721789019747497456569745322754500481224312523681009836199694916667062039495966757434852933595856859971197147827633270962022159669498185892600868972744290947732016269108426634221376659223148556389709407081436234664440119442142380125645810731521571753624591723112668887815185552401692296183188648842878720244579950812874824791529812470527723869267561411752870966197607951794038516320785856702600074471480438188014763192570927712733518595072307761313619810339398033373632919523772949885842311351330739387286520183515657316127553761476560087559096154082968993627998238916579752254181605869833713484180261552044308938405156208076328627748075542828262916974247631838),
  (32, 18233743937724879082835138573697943248385513554927222170357247035811128516773408675053059666132579874018383544835259931459100717029045918978369132296761271266658504156469433516408868697341799404023731398447458307251228054996789677127940655319843916522314142775174911098207981309880540719400060674605504882587883329874507530547163003344394051288140750530254453204081464961116468416645963973846627069216405512251465754330650421672002973520509703984597700133021151248381210495492119362842397533845021473685303430371555366277642791498672407650822400425820971459332391748118919926387640389510784622146846793405812017238863255004079713932118024482353395732008919672310709975395382551506046547406953421506508818476860849931007455244747163094904466385300638838606552324410118177077504755679781341968351551282924958212949244421845936337909424481486754574965415398773770442283211024410761963307555326049290975704807234164194748384442923482039989324684164576841123444860209812276670462936077704),
  (33, 64779271503300887086265664489161125017524772953560578361217817997574802960765320851937186731041864151917003490741521054749305278140405733282974986540041215886860018186721998799284432889603900726646278496793633901848407802743399423824940669596971016275788729745882886836867419989918196689132266311442541247061914081168463499236085668650606168109795046838416586257551712663495754911792940531908040273498975442753100931748233349776703894446030250285598364046831674285483902625060194973539785286648720689480606808437563643769264725324153899137533031510904791408738543503921670868229469837716689250119031409055335758553358798481681654055445356327830828530341290828944981631554373976001281317725042565790016473491950896804792814067090929826717939556999980295477279698608101323894586946618992611951721978181118732319048234375668074477039224656575193533845545104730592911545307053494172363448822188739143092653975970593413247696596751563765042769905044731460019402383557841251),
  (34, 230142203972508550742282067628459579152262711874794549836809069442102339348273954098521235383386431498323782473739977912019801049368062096390928828292698743120378153721245682484114497585520636293493536228532362971982934535320950203318413033840118677123126518987542650204983212667558856551309970771024441708720571646186837765800466499660156760245645684163542518621126918107826873384543088305824515936704800672916580090462199998098031357770722826625175236929544790490800377900564200169257998378285954134923002094216322426352682888489424706157912568598803587242597110110184296422360947808040944670747435682057132915539501533260723778155387317899298175636423606581662194113552125742714955275057013116486541285857681809416500890896341881137269806328804878305745245126263631801255239008607239303920567868699726455821860585380388838359210607842412737061996689245102754052080859649551885566961517989639284503239316726402851547164199223407965187725935152806360638),
  (35, 817629356122426112358006627016014815089076336417431556562519712124733881652900328672118772493889722676777825266828012843159464681829507040352597589681828057843019750645982899986422314745389924919079954098181964342821254777566474586968373933516380655173377651696584899947670815412174222994006251628803415845824108420442978401897028957462923815039053578736885988179464289308135467231789642054777972869512368558188538011587074508305486698667970237581675526869294614188530277395047780326110132688549664748451171536272516598480022119702113983384548548385618571177121483003830635761669546194166102401670954488846261406091368850184626706301250804218325270712770004402985349279880087097956645520006118064412960488860881262833105977898505719055906735360783919709849479672973554084845698068297340669792697540841372504608385661720903031650621925719879045897178433421333663566247509628191282167081411456886621115104369204352141618478284446660888449595),
  (36, 2904802997684989351363095280760276718730313468918160342713292211913567994759640305351344342802656834648729905507723778327188937577769116986375254301078018997647979960831458730816645096528562472197459681969081097429987499548937514312228658910239771157571398626094225773818893881058427313440070278652536364349114916247490050475636603940199804916785318461393039837656852307172548770328503080001878641504387953973709760970899791261339088412842007662614761648818018218577725296038082445496663324605979533004407440988469735511086397454475570047652839821276249904081784251320650701789598315023753267161005097514487793072757682491097733550819834792066478234875576285064325726481334299687425205141022234722718602135422908153634895890419152756610614743393898087282328231610734609437662616131927864734372333304904157395142471436988564449551112736633749962650348992452164245047005434573895364636224616630469908733548721250252041274222295),
  (37, 10319933344096161503113845593353624604976491745155629313126468928533494533779033184697488683311462058307293398014609543677242979977441808627998725988213892176908515927441801657728434688352278463820293322264322194181883335034677295629007172060150275262034343412401138737930584728302734804007677256685671079514695098985635791798363261087960288738602825736211977803714709679071436157477494180643066543650377588562892864006535590062134324273032744856343346949442583087710663851409526923889635530099981770323427396200053045834200470340687221203020910137543702758838736718768287051881208659173084394748435568528900308858820170160961334164483099728435889349027426220691449373325819948749148900518862916650068438462938946379287177225850220412578078294602451573439651460145305292777894558642965580212195896429467587798193126619312211632959857058096180997742279668736312177228701707141514402229318591760962912493527048629),
  (38, 36663768355879829752246640676741211256993042380993146755053785427750130117526772418503817275129297256097810240944644164059175024702274446247241788794197571789847423940941246477645927475503103017669170393572561321154959416351501191248272431418014461441488752075790056607331103548807047693680942542667660550560022815362018232740733224286656550029472631682274630550872695617816323501771818000554053706531155114313588287130867189571061376084645693836469666700400090034259788782710270449799195947383902046513430653795526862293488599636294360421659603683929310996945778267275979774642101163447839763679251357195517889111401489419906334905935457632458865616381387863267954415399206867654189741835932692853082377929853465807563930539003705386298841686244795635726388539930738729428656225612200428443753222001940823414197206463816725918645317820746702663558925309042517919400099013617369330741854559323925),
  (39, 130255871354307223527679018396105684232503495980993254448771069969727480899078955524766266362429849140414032335867611626454816254445740144712725070114492254295505437539621168090357584745738799624735781668998270613740907073504720526804226718840290035718605701134916076974788996198508544621217482444211483114169935531117936960686652670027638181556265234394623761748330675151087217670096154395013492483863688700491152996032251596978344727848804232218347331146020489910144365893465417314186698830840865228423706879919734568678910131611693407329284706167045661397529689542669380751533316450479041934342471535211092670739804078239541966763286214667596659939289931583661504934652070466200638402357251185107012609222647087214601826156156170515836483830871248672669237597846469327433744649606117423829181011451896633577083352098443224703983111595741258250084151315622224773928173107465096981),
  (40, 462761815904525603314137848073903868710855732548002288413510534218628865584857676384325011875481866995635131217552823651057338787658111359891411034491043545441987694529548378207400051372171388751780020488262830062854316798509730286085878670264612948854712549790709052663546146036663785903663405473704073388913296816276420236466132312795896420064373837028184498454760520312498406318734267905126757284754920185645400737630370023249665306172030842148715627838313155183747352966835977415396817955084398202821490646102660622082735873749242305929264153876187836945865514098288221488915195694862096837607425985431837293908675879484701069995045824895033946448913199827017868611876365177677827899149786964805101666396078343062812320515850004304903818813245394605519570884235708986944646842822155108748016079817086652739236931265212184243737112549300387094363418905501556780811),
  (41, 1644060233390567316697206672672322155883831127709731212206226433146311120961692076249588865638721601962476312999305979799216102050274582345842022008281005846033346305216035473005124126862696300420852661087819413788142052553432591723043545240031966385434306584674300321822226800186232072608185553694803922773213148728136896069557677176331706987648746489370328524494583623301561979355430092929434041140327444856851551645851908724612903124968430186611355665505831719600580866737899574559411514885707975266384734996320458859224046679897843588633385023045214304689391768321477697419350312479325043568132621514514548279418358634183911906253930991801104779055424701634365514370393480612873169000545169060708899172471404470135233758621952730871455650969632191177629584274893868006430237059694892487378662084312158761759575738535036933925936611448152121243726353),
  (42, 5840875279938612566955695230616497174248521217711989654663109586530082883539743916903857793665072158271733181401239230436197471736582518187463592704797815226931493395220667026444887979006278043959282232516008535022608595039144999837625946556521413498635300066683628355333249651200341238674650865425487368290154131111822997730295197331403323303970235981888540714257698118102465040672245927723307695062352708908228416627914024153652384168276144982389244967477068579259439057806455931003020133683029362278481224220275388951322803067093617269031267028703356948100693799193546203130324036853402272148461058407266502332078479526105160828663107830362890555218657090666505917833187012307728710231959054778265822449451951681774163166239139280146066321232473299446333969121685038955331150118412881665416583497507163812172111036360623283684123695235),
  (43, 20750957503205613956807327340646340508650506868425328456948705981389880137871480836572113970160150655023847789053300572304435599049793391759339016262342147049868571564298892390491317224697941243159526665831173066226299365843809716772582103886869246654557191777974884190279625197272022937424836808222556936521403564232491193426730012127633769339174159318216499482692076735940840709692175560240350832493386972208706387321644391289925048353593815794197453262208003072351222901854226213008314384641607480438551536132700506555494059264507673448265978041842368701243658159614263444452864948589745264720675956456283807395367297287142309830976492235710146323077195158978344394355033315969602301276304765229831919423183429627744336536440945776644133699740300396593392245466084094072066010803905547160644806713942377028156977715369737),
  (44, 73722210569846474317072177378427081047119738980454768816136321748207839293050620479327051447501924981442652746866658847870164251861989406090890322523285422168551722910868084688320108547412294725039858246549984302544343972770829957918472712256581378051298465278397397136494011353001843971897087369011500776749637319080728205818897399280282431525291815891271677102999534077921990089497164103238883135870575873762905334359728529077213201452730512186236641904391343261834346598776898220398726390919905244643665038468689620075353596936990117886199930654073330634579561937287085464137285706271252426053743333843830238408884352423540462490759429265528253119957821033041742273548954145821000507372375617016042300331074923409071213966999821702737474013779674470454804010180064953982851645896265552929624904625809783388),
  (45, 261913905922904441741650953475966682910430328815916955076226680965051930259264169595728346937074562920182564884676674353340024109410129160483634213724116070392404451800509546497320461306686638227407628134133265526534222479389312611551265653591894731283324182176898035669985344128741684281448327488720626342485296257545833034694671190726482584854558314036203524924366918532296910188088256466605449876843969006781209450772943814265743687505519588706643992126244087445263503907535008560269770260792773242478167735489671677247751783173240408295146499855808098979366435578243759434709360561359619971383618002084976677018030005292185229335419341899720010428699612369529130836875016335382310058491634271974129935444214845823705132308736905663341410707367920905506945805236448124432061555433858447350104),
  (46, 930505116240370148764963242338674015681986190707025049413490454597932375965349306858673790440231674116121389857026986485113277495200880441888459804400760345336892998467342252832523960163799947242376491279120207141418539109107628403852794166490736043122947616069172618075437553120028532464271767225428651226732374413892538496700252087007237187681439896299490264181666621812881993962254082342553824461531045355507911563550203822862481016163634055572358047883966448189375072900586867841969778165786915349082288296806458652184320417269558419599731581244869460485608956730122713847291955496425164955055613996797406915110573560304898211576741253526303135558692667513911057684515026007262344353202601632465825575039855455486445364714645418268459229935234858799139501023902204164701541486),
  (47, 3305818254661013173620756577179832558216415431402040513538690543221078837285547532866104246128934482667290597789793050562524213746027831109224534851556740597322419290026402691372736759779215314732033288566259204971781500645702207749008627175992570920217258811304222863018741447195061654109138490923395294349216017402070579090243972579097653973785926727064801919205554359216374697124839414300738063108678005805091575143110704194543796324690138566728361296877900535643068300598769614335950248776752033824934667791918730616037811667651675654810915166487707589185049200740180338426351115220619609055126255193210578262519110773666845643598853981131243490699959954495789826041095552107572806250371637973822931170954210215502764370919670806341570898831275360397917643513095),
  (48, 11744625732962579340397569481401977238270022179924312929479223213838496530715264224294050966398326563925223332712839468100650751377636137920797265047656272741126172903702751084966530337528615846051659795874988529101321597141785148755126124965658755215300095034811791393523317799591318321619332017493555020385845649009544534022917374587180697349868225427676315411322426522381051736242836922952587774425310494674822066026046718161537811068991072234892230577576531912839027919874508479756797489636556129838248799590874738732597521246080759840570497637426083985814252709168147170569750213246627733509575177995777283230213088565236355560458456987121432506167889732405329172914761651543875539153861212983395006930937771535738048182155601632952089389618026017),
  (49, 41725292493888514898961153698374416922159528002065365199661752765534886261359807744816160937268445975563618673523485367519102922267385839348161337138270251903257493344298753595488070102774460845669113381298000637564257656599114851050163134042689878245234762678044400208466928207552062127729850146883677725485421141173323889795031464348496934755485628872073312900902705082791359240177195017988626119850386624992088182428339666680909934879969972048095275736931368537097602185328070392566600951490674608662179297098943196282898056850139530052522534591778154176257088542680791927488847342564231306676063158640166527729490563065659572897352761348346004078891933038870691750458698373554985802583047531829582051686751445719065595019820915416365),
  (50, 148238017394989593707638957486464979862327539653589859901273731629095026798634922764586341330911083398566374991949530046959441006420760717711668552003869042211755732857996550771090787707249264364243953448842823956944320947147564718914624920599821487300185264663160610502459146597091737604976440545878550177434969605990397879613262290168234973143674322494785968787875044145395516937303427378032728170057342706961187354905405792915335595884082239965023779592745069945342235113274957962184107607802994035051867578227257209857290774529934307502450217791418762362170318834062447362595412779992017656223971612110243368119282931439881263776090913678616721331382057214936507100597204756601623463288844383323322357365679593045528511),
  (51, 526647232117446128923315614042172404773316401045311734650206157156234286530060148098951860496009352058332878981461415033499420256239315034761197028404675141738601138930009127119242027502186700260601730230519025309488511350174201012703584438019436402327452791212955522070981241114695021257885705903882458506180970200340206059617616786137555487476095706291643651089631051044271990158633061800894484996801129256400412788059648745249059124432321056359356073675720825207849506193234731611695373370006893451828911276242489596486454580739803234527756494260899881153987430953625677586774112478772961852649459265004302172081483945323032529380769157281052184478812308208764733164422031916789952788703428506967084832600),
  (52, 1871026825446073363406596266188756854174020770982386278349699214477223233167770288345280696320343558138408942766173545145524265605756332104037675234912090521125487416686832416745362607930489620770462136852922598058660613543560922614309086717346876929511147615746717529961969201456907265194697232997873210157859350127706237065530964412859285108507680115648463450886293952039983865688340331146556528208482495348541381470946471160998293430335993130981168287830918734839039736406826922538333026058024972995575708477733792952146856901901231312131535653169842510859446515257032618003646805022766321487810248547150006717525318325920772566020794668346488452897332526757846381936912991156006454443911190),
  (53, 6647222596164942002184958098038561809669966075111338471400672545538036927833678621617304193131715748873193432503433797125461764601184045555602673698900088560164310381780601129179380986781734723426338503043898966103996589699636867283983651247614164847925425128965822200344701165340948430196923723330455795135524948929334631483523905420687751276895542474984495991834368529723283226289729864974281680570365569562876099625502366217997787418565090257087325660916311101292722966336608768887398990720527022552563225863885373869122094783047528941493531707843967723193425260214299354274365505531628623550970739431136625180389821358722766714524477228214856217326283347095371800999867841425),
  (54, 23615678643426967661102927567873403131791040246032564053229976145241267426913159616930573700517540100162733688162918568082270799524821436151414266527926243072746321485860181581762852290008296278837346835534516361555157523521402982444554910464065705815880000639753266882156832978157673097636122397851493171859397227675602407901478798061904070889680683055908006712051142617901908930799206167878008877808435607263096051058334456390606685273918867517624369140415841908852146245831342333846150673021131333714157771502249094669029249712155239601899472894602421261611170032161126807358738968171844637462219504596787479249816242904781982964315952567534096769485166620076161),
  (55, 83899744550659845505091029677812806844861148377131501119849913271864210998636384961725071928927588785991152502000990787708999752540194643557425334656840351203421350850662368738479400092134151619186825244913295252330098823254388733512778293365942291058918003103636974634068447832968400951052180065264128857961211698114935490610905590542081817390622454883675669801656077473912836211373769883407904070481438732255434018704261228068406745414656219829231226447020044730354999874071180535771439206227193280334929280054449819917376134349882627670665437195760905611129922991273254716404857023075817701628289933886906463546569691703770971891406472298495977913),
  (56, 298071770112997020550963929611810980692164485357282478608072727308083918609598159396591642707385536731116882553951179745321795191746577345593491030094217905085116667096993363124617370487801607963627351343964539930694157895909719553654161410748352209367497078042772284302474477012133785224883774447562453855945732793918448131662954890852775492317957529532230983851201870944025170070957947610545880785916749565121402049522076396263592686315777918797042076730214692841290236116885337650684508301873843580939003206722857809625781964846208105268604160856038804389285011981657423472721076673509193166358385574697257562209818802397893879606757),
  (57, 1058978151831732331174851855513113771823914189396561408541903191673022227630427067998305102665298552196746720164755795055111844003732836745858337688870954983471574126046256193887877115382558965648373616481364675632535811420953784451357716574891759990367485006241587105011869161658020229985949577995553473191858561540734848762712825711671193863886516095523278315771537473180605404355275019730337905068874670416996149791687450842562779323490085621223512048116378706323559924123054565260418592096575036057430124008401630121487830071662743157764978348934161665339372766742586476814986153111022771895623384051190410487603898380),
  (58, 3762194662274690592894279443213592295102054776353383454152169875864568037310964963072692000096813033345591451498063068790303992759741637200267024120678352584860217576849469287105396331780371299915034468704952527310043571690299894628439822303609821404690936890368720115845085964795732854026379302468110626233963086131102617257333513865746754700009767336489746095305524324396649529128410326266843218862910500534411560708573846506370836711774403453344205794153413448698241904868860739307907146759241169894003613913426044102835383349010380883329500379397208293492659106094339024726254101219580000535442442596356),
  (59, 13368072067118050001981743214845303393121304249296682767846719675694304683460887968488692485826132982450359639983552381773528617490160889795494828044343096746849731035191192977994864814299854153346359132224902700762832591332201310015756264582346994870543947071137751670044779664293280341996435764798586136345274404823998818308190873941908882657239907125626682772219868166530524561649143030605902080586597124654603747938336757659912921567249002794660884568516205466092250104167299765503190352527556315883823739157422025483645024924253082050170144103778327720241166061763955961167464041566668155),
  (60, 47485383642827940028203625495330253598910734559177418357902347577350341370462994000438791100697747444021710256853525742790765730881440032325543854369601234700119307347701489526942001438014160429304608093067380464900904768132357338300489204986976762143462760948487478268128323888262198540125739989335851737522796318658886156340800653619109762381891099718259516593321102532421717621221909910022643015740809078919291768124718683466908863883817468882064875042444808422991622619573908385613189077825742848974648041672683821951550851957369350720568164471830629139326570203982896212227),
  (61, 168702643287569527094478626239077096184607510395465976378269060645403325898634562707129957759066497854183847109824150707096381712993855681082640070088874618472464570902127478949964950690519419939929602546349429289133693208377452492701783710266819187778072055317534157717495355784630992299990041374830212000204828603462597786632249716038805088896827601435662903338861957602111626317881510850337336708248538465281926427481692886310556002340311259654934851510174402007160200075991006452275860183252651095273566534947686530680167835160457284922665737530891887871030486),
  (62, 599326531929312728694373738492020212495823802719096747910884264787199201230880319670002072428391270721846644561703591810262400523814317573802476511551835657268099030947793090407891907228596326338124272501513749692594227274919299101692793876443964095706155601610376483544904846111352944369293260964155808870909848497559056003851981302671629271882362551610505902775802311859939627675252009600956982616257012610864953882567506773045892131103059860372040591375703392579620187090004417305983166829019482314269574649712678335482053775861629552746090735430),
  (63, 2129326718352152770639871069721099350283789463781692829648591299587069325746108097498935740480796174755429924297565427978759349404434426442376461763299122537542314592550577765196095940774757725569330385833435890100921974688674321636149338950036425615969608883407204366133507346186050095516158629975864537255810741762611247838152485640601495619718444109761060739396781515539167267969017036670815844457334734407408015331080491622172851055661184188023394193620836313084821554063420750648152453709689915590425782064912490141042564905944386),
  (64, 7565214715126013963327511462685794320627560608371189462290002711612883647592464503127185620534960562360710921194578008137589180834481997884414496072724230480572231335265393031633647386129167325971187546040831491902385594539832568226296047420590375827367559193757357941826238468177969519751191812459415847782567552360538625719489608011476067468763480188779676075260566082070530922904800337997166761504624582950813976153130010984230490586824608007135766786654317970806814378439291295920363512413242021760914082908309423477),
  (65, 26875881640809050974269404777257776761956086660455200721534806341010355399912117257215207887746359508622224659356552457135109941219437868098127038365469973612198058000901680917856821616286580107460098874795427596021720144406503873405515033636077167208823808417123266521729000412752348589758420368963490866702750985941112792007433475212009916337077329316961354911964731195616319946699747439874370921657287924939561408706686374299580900885564586162298658948235985737435512171036398020928299022072705914967050),
  (66, 95489097821417820480862073889600995256139585539209276847103114945038886402573176976620873986937792570400120866549294686945556757988287235062479279648029602727380169473599866939301113145365744639621513770414215258364348221119916467887212030414868540643324712215640564415613139562595005719905860692942105486185206962225081414964935688676433428926474271428919485390554513213867128984558378864442057183377722825207456342547521421699749355616590914613610212871271160352523599584609908491540061363),
  (67, 339221317116502399974128589601729741218357593259358393479371351191588027348399749405024943755319773836098346515922910268339053657701089620343486621027199314241730061032910920572161473803645156185064434199806012228773161310003598740768302677789078581402580013428656565746761642841776582508241356490708198986630265367670631729031838492519557299492329898719324757129392447934515199957435893522862121140982118043194325792907352023689366274291950939463353704560167433531035564248648),
  (68, 1205110943962337608055735280149884196617416055372700745993037055851336709663802953795008047174235964146373652160785842413067329288467593351293816050895244711981179700059255140045928142442369542496202547174400853342087695495081754655762686078684087476843012320089434384270627534344114220557144350402830542508178181701747030415778496694624273113470846947282532006290619051454780816402712877396934166854542939164886421650627501337229751521047321984274441154550338860),
  (69, 4281574964652607832332067877613483698590295549695642455648948258656168272554348678331269797716709247320919708940395619943557421173439348630018160495900317284748850363960389803682679604441482127820518307071956661306151999061928289498977850473105368552685063556438088195650670809583095447867910375795181847302965495769378252727122732415696127503564533895931542662302022668557961667136963781805916541762658981396708384889851301687475352267820316257058),
  (70, 15211209943731091100593507683236443746779900529566298809799475066664373400467626686151283092308207786220916794508666078282351888499491969600582793431320702102655885300160129464678381278293844134307953826828508005598773502136164916488054393073902172468965985532226172951577067559281261854191016754846706756202140957055655234901347852691779827959207598750627251888827431438887261503643981069198856158321929206232492898450499029605488559),
  (71, 54041383509655897085617285098717859314146054440691308285128457781589656119368454378306237718928600851718500443327730405740676451891902826877652127743147126066026949005245919812402803173032451148299137581876855173399624432103207117526433409211139314203979393259020793883457274457740794681345275549628237263131692668840697010851986760954581203002414994727588673233468985775842324836836982282624666234005112984228390181051),
  (72, 191992461531497033190029352251711721039230292686858983846235656442165450597334907464584449739416691524085451006289630341787457455994747331215347512555195324878040547555271413195856265036329997221778417619750077617861391032701234604714572265116023827810401634404605999327102471039770410010166022874670415071096671213146712192919699577566401301181457876753063262035516156932671501126387396382001370476747319),
  (73, 682131826344781143691109772313417313350266600692435378215482130173164241899260523174371026972533133098156076849017833552628742832463170938934647812634070549011783451425585969828954153221958222676725107693082839561345432819669881354093566237408690909600471961783175552592409050112422824109430237180742045023188666490329716783562649467879354682855519196571674640495507899241845934019319311148),
  (74, 2423285551989552578504784384190596270665594705969039509360525836621902131435139410557181212754291256104404743695301487588561949330643557258781250879267950941361507938360736527625133329194785298396782191786553710866378489668932161084771867949212638850154173806339703037923731676852250356926258726296110805567613023505103743046013127697744851713252397216106819077751613089713718),
  (75, 8609895938240422602217275579692290017344816340304306308579833108773715717256079396503802454602948066878204153532444360435370235671200630100244231493896265489242380603648873394007948314069492676914923550348944546902118017266250972148478465893951695961696888538489013327841432690902261995942315205965625619624221026400614212877923980096819272446152411195782015868),
  (76, 30586163746423643470244164807973975643989869346072640868171210698891761166589001796204931515519108098093525731131680187341924517887367733448708729133194455112757431448735583892379023233644519534754235920243631286643341159184562248500239185939183589275483363751685174121108770858705514176003675937706534168488672742016283300409443453528273892768399),
  (77, 108764661431097317048917910857761969243927793038344849114556320213167280163629838920512126090969723736681236934159894842686164722079715627850326715524397880902049504620027715522289548721677223647154109382121763099581966904062304403037845295832477151899050482806028303838644441007802759635844526085557073036112910988443592994193245720),
  (78, 386051661123869583946123143313605994121973876484977516489386339776937823048236302908612698667879938491043123309434290534157261752758182904222218661842067219538090730429694857119855662859130931744871043558132757254061590088477327697226553180460383508103289452888227024217249166776596429130942320322570365278255118406694),
  (79, 1370001061752391441552077727862688577923774078936447825701459148158498979877685501463930811465629433557095633512646921418173245060606022069879711192286390197064241117524192478825919894003209909739922393785942111798717907258085283893426617838026003310206418947436555289449020113716422570191386904600897859),
  (80, 4872664424418877020654381144438154571406283775899656481054551647291658399297180913675968843424852072656417785983314720357413586250707201969680708662439040387053328872195272510394404899781842333741521530103191777804397463912940820018994524084442525010269431167472877849809762706923683701176),
  (81, 17311155196253540294052182144158998295436049772637597631210957328802319669818647765744253066646699110779121126187518267672719065389653599143671041307422447435728557696827344058744890567996617650231688600995687751714508292386183108761802422846747265799137790896456749667001075),
  (82, 61500748709676538141147858811888042301047257648972409241984652883280005679459616085213237616872682040957184904432655966643643415929807244231889457514618417844572599055004512115221930864011641735308468019695853582559280864112266406584690466937751650524448856338),
  (83, 218497496936607841113310980531349080594451879315392705674416317432852327274385865477722197211975748267083978403824820093796784967539290382787532628009217945805412500095828701403186573505767257332823878046710803223285060695166324336213180631407397),
  (84, 776273883582960809833130060168968851391194828974684301987353375946899143193935890697749479735421828925901329344837963617587525923119991079777472313968315256193192571126626221876952642063069577099410684071127210116329369020260715865),
  (85, 2757826131551003446441517690754114772487745979653300967518193355065620139283673931034094456108427727454556178031151444215005077530331861652185523554262480118596719776755991573691682597795589918872407650245091912749269),
  (86, 9797234082353992411286008766539506373273551265980838203208903902037304412640542952898398274198861584260247343160717697218810125632238737415425135387672529359309576324598829537033790274319944864364226270),
  (87, 34808659497239772262285929821463525996946809545799736501654074496806663175617626426054171363543140762120086922298973778988274687035129554915380556581542435003259036752030355172230197380063),
  (88, 123683002188804445401427199449386304569993499960778787431289640666740105049057778694250462055116858613650626366736238429055118895590780854402671234586001713574231550282346477),
  (89, 439347050248360582547859488883638161427387381544193728727880496877235573710452304317946759116597353047809724276617595457464329789131205827502507954807263665084),
  (90, 1560874275158001661033463706660423671287038207942599978985842943602437436015940007145846365452867641029181131959715668449205697740130078422219170),
  (91, 5545306101858778900034960707866912085183036318873250714955743030203687049082533676249750266113471665929215606566510757098120069516),
  (92, 19701003098197309598486121184918817598954110262534128650044437905052102240599422718937456394718691893661643159846340),
  (93, 69993228209100039098997658589057634305286761888913645068374571967910247288311131966615985796884308855),
  (94, 248661618204894205145697837358504403834737719902976729263075525836411051233709243635487),
  (95, 884081748880555554638740227219642132595907795912246135071633186431413526),
  (96, 3138550867693351491126360386332041859701005436273446296581),
  (97, 11100152257292689716028795303718711061095684),
  (98, 39614081257132310105362652231),
  (99, 140756446043784)], [
  (0, 43949019602394318601174732226524584924499858474984146351431695336451847791150370995867926578744033891422652323858200108643005077052312024717556784421557793206718262718560032344635603324209965478630073538348227854016634716669698620186613109862534363927567383870692630567321727969378299684878448704322341050090495072527587798894168157384393871439579579141558105400893784902091162879123267986124359372820728642585723491840616928133677179361358198266291522962704717729211998859282538985650947655187349119424898814470086800554801777671438101215408081817654572925982616980798858747681966917730691316940829000065806743811055321471633081005890162226551144374754468520308277180213784136535006999401050692782530931870374338457080513436125421118000131881413376561368666357871034118850810807305807876037560174940000159557580964458485079583651833005462887841236116174614057080303038927245869992005253099386835834173319152544124912080833958607081202749737328319687418897672418667233484813677785911430813030451516799995132568744212114640260036003221549805257862953031234881077192418246573321811646206825090536429197102571142555054147384757555856276788771017285726756158554034241775739702184380843747784622304694732423108653843308370535506077040307891370928492365977161927762710461292252724196588558642932447355186222388075031694583819096784019580250192822034554487976562049646878868949468088442006319782066494690502377633565776049916634361539515790055132102656)]⟩

theorem ccccLow2_ok : ccccPlate.lowOk (29254586643 / 200000000) 117640333800000000 ⟨1505794692263563800, 286908797621527200, 296419895442876800, 2584485792000000, 1148660352000000, 1174730966250508800, 0, -11471731126211804778, -17207596689317707167⟩ ccccLow2 1 = true := by decide +kernel

def ccccVec2 : List ℕ := [
  10591361539163008615499596298176219019590167198512284227705006510828788499597971292212605057475819580810244494639340728586128259539485250257381901178143237963225425295881366885576626425583939906580838859673097033457818592718972913849253984217415064193527086902330522846950448740260540997921129000807047199325081552117186753131165420744977192196892191507617638084101658709818143660015192667154157331553651269807945615857121917544741933545764602227379829826855742630482486346773966602444316483351969882804356515833816997304334778013726060258665747114637975454130395050273842719821958350836359875975652001395384286099379540379026592786943135487756569784735679846778594222079940490549276886341443815759868250882699819642196642174860669476591289180000925145307454928565064710468497390079110711287174635911494240673994469842853253567191518218063836669167590169834411750672855850258376108388117843558882586917823294775073108017964545562120598798700366039688524482617336954545024120615205002698831527462433468356385134306810492570433025301236108557397435840474589586666629195516122893853135822044664998402920433941761462413891605969216324415236882766515284939397023490491300209406845042749970079046671596830612822970552064138903695891312879581654630904287416055754200711168,
  10617309348709264955319889042648668114809619521384281182375685556836059933919354547459062884635995765219214240892032273145610495105332038027357379744520249085614071807758690819464418197087175124950625587789029361393931909454274187481103911889719230238047060497971717203532483065901215066355957562895077898224394884460492861551595522048732873564884052021982583529281572751996508897646138251869460939732099170858277110334755824564731545766791929898659320482698077042784539571899045385464115540336661997042309088075964224375342095765134500736598743466615986771097815765119665842084009865692188699031409015330082659690181810469835566321928274858660251884544214659668737973425871997227479954301410171769334751487574105165395992465416943289664073041120767918824783270400227494354496199762030898813373731111137938148210102035983166488980027259260931221905916140013762490152071631690110617887733998188403230008062614298196146544214060881421027061716445943339498312992545712752500735034902349609229629532506797306773040302030632518100250643262637910392398844590569902260603667035476889522094660619047802684145686296678973014619105083031809099636333602498577634898589183368331573975733769072270877270973484970724446134554402915017669427903327843778041078943460207025091332855]

theorem ccccHigh2_ok : ccccPlate.highOk (5850917329 / 40000000) 23528066760000000 ⟨301158938452712760, 57381759524305440, 59283979088575360, 516897158400000, 229732070400000, 234946193250101760, 0, -2294346225399214734, -3441519338098822101⟩ 385 42 0 ccccVec2 = true := by
  decide +kernel

def ccccLow3 : Cert := ⟨345, 275, 50, 2 ^ 226, 4071407519579152677790419390519252616567112147883557648138674548758460000000000000000, 13625374822949529848210664223742350849166936636796922612170145107514910000, [
  (0, 70623351156008829197592073335107100997905877157639990274269577821253878801486892608422389132139031047064107577627787707643023983198341734377286622485985730358812764223720641827914288179009748442362727107499573549599465536761799822706250440314864835768947340882144189301616500666005757304240695582816869405260161263298967385997377867079533661768506658085806415064238509982150189495998813120431273730174021089071731802450153536194237399700931168602453229931484941732722524126141115088987043048270045587959811070655399367225533108582631887256119389808728803400005577190694664977385047462581980049958612315508108545505940681173191093205389061414119734449435954351235047886597754027393387077113497765246331967195306703108081017156312750168329407817977634577864911710156283999108797424182219410716880870402526813446139191956813275979338802690816675559022274390598444269106182748245700244254130488182237819719989128282093008847707484503574385742985287471842090861007515890161392424986313717588508218992721953458752647970122634981344520939806826104591794851193532065023057474941938773918290273742401502342083930673883097019327761304187545201561043587862881185708269857693269972283808883116773438847585246020969436908139926245561295266449666230705211414411314412803943172563938628371632586615541284577923213578713524059207510978728167298581008505416768292883015717624490962182165344925567051449631710748731583148285471098692944283109634920925867411443949613878273628982986641013347059432502302355439392821787743237),
  (1, 62726136824206126412570105711061907021761130601325481318061658887157904818591213751185380794266170204778737312228293180737701660858279964811787944095614027495726509510976639565665677582033369688252661668514401528739426008999960509616865282328926810162212350433396630722101058753834971203131827623041265315786779400083189084212991110237694835873386420221429123518816308088005047001101507195004131218863740550588213760304796973537727765877910834632071702267201149242777439141492515394842221565687707125307525470432735243900356733085202862823817905655918121475170879947197585714672133138149526240556780904302303226505537867340934160087871272364116190213618137597869002525013525049694239401243819117716299127761666321623983668773184381384835609326831210075356304193331456236280069137093531640063204060122140732249017360814129614423195863596291744767527632011276041941122161314046869518070639731273349231264448790646884552075206996722074333108787587685034749143102549365849251167169523698629777785131937181872431142293126424388778290738372792104693759113623966064437076071149124717690947356505787988507370165977634650822237846426036062732076291419259950807372172629773620014524452959915135326812771093672866246653119302882032398534840328019340450556784282455014503837278553638599107876704081895675357003869054345097970910372224356282337139407160894849910389743548320471782690762669687352135865622429490797428478396761989506068237826970479192294097882129788886561209777499681673420825174998986759),
  (2, 55712001179459776870125512166320859947385785348650403326298389217535936550097710318919003839933746323762137732013193827660075284429587502845905707718881883423085985554347703483867284561854871869647887165391298995222761640117281271160404027329357926108443254276859770274858252936557000170690745532204752186594014488253211693042175462014153853594653022558278186906594132096476957115003142349799115602607904100783216346121356901757716577443483538065216349586341548524296132706125334484582050942430535365485480931604818367222215042539385968172266242609008838320401220301009235476371081381794360652968559407442077044347155579413867511439964873729401516470137891291243251583059869019227154754691056606714911767203741148634021340498843478961962165511458021174918071100596256365721499703557841781828258124617651519360434587366531843105833297691666979084916646050235553239288024004636486997653265994929588679124814900568602133478899708158267405641227660251139275403840052662556007753851610486955078090584817257047288596648456829038358320795213202214290277420916117651195753152980633504424970835576844381341890957268708892670131775257287920095673366572830661904437489913884240327640246291984590942394514628940025010069971551891405978913057240939310954802978155032178202056954630786897876485138612083495364523497283367490485781761495651741544769265040607502831166427915162770331432236260689822108080167657035116033430952221778934798429422552062108564872317042364741047152116960888783870),
  (3, 49482197076160287534385856672298314405719286022146470435762398359147820664794794160368236234535027834288105371638152881902677180077437132135358599724055739606106931082634871531375524552945657438007419121884707613713336034720691993326631035767126087297332554297116685072435463186665649573739898241889400672597640415884496189523019316509365644714795622399255014701584864952237594372384907083585092309074363708549609134435514944093037442739107159318221984042123196026405410273973043644363840749963523492562768864242801452781017044585300012018499069754298588555203498657179265029067330791630538734609731126969551001910661784328300272436851321420873979272137355536793797356363109002970269257170195725521522160870286860031806746480381164009788526050981035848459597352481338760672203487836761528357559149223928583748532915244944372423432706412776255593516306079823429935314140453405644365120108428707874801342207712719169299349896479507019418000380619768180299355587314113101495770041603672880323998671840963328602392375009518248455679544902795040290802503866880976295281763482782723591511522937218986567937331264499573083075397806964850210595212935537330069988376132088167629601458501770201955322582341469319053899095257624705279798420921311651664908177373019533528399300835192006274592796366733157795789995172648202234904365828383392665097699183684152176413250238783830792080209614064901786377390921754619072819293096440909905490850592708749816263603211809003450145),
  (4, 43949019577553459415012169447995075406572028822590116727664123762687009430715022623304420075115806033146210514342547679583068535207901030091883232326937882878209183080823979963785646684388023215501079277008054904597826603415131676619760275068404239024426472379609871451062837148469790499443389588159356645848855550307449576083872932562809292108834420071678036612440803060992305858153867859259729217536722933301522611803554942156401888143367373166767287289127792895165159581479866168608057918688597297666689915015911327929880616534986842438885852223867976710834487792656837070944963838285941039595110443855747653080990083394584245879141869667424695285649431742666370507253806056656250726921837279176097744571306900232518891104474763526903304946975623320201062587610667667704121841229662363434054086058638852909324163631827280046222277617734024995201901697913400260438020950487554766840475822025406532329920534511655908271490741874984641617530489820979087091546488484484999419974030437813651579093249415757436727005664910839415419644695213169519773717702384807652962256119928786495328891319937199659749576266115585993623626188163855787544739439137652821234745479070961367091888268551523025949044653124563023394012548400670547405719581182929829821864192040682818915999697796127210150540067476678359394786402538184562023100138164816781587202809041326576937038272666238148408511354028260939874873338961763591883751064907139542490229154441175915068854),
  (5, 39034570777824308060976947430371283064114160368766433327604932871556751680591360405366227511310451521792746675502278854601364651742439226772698650104212411245008741963843635830027014016744098865219837694301986408005082433936814294927723113406746483510552805165921438946089137521765062068618590783008259919778950365414548323769635572937591605530592436474621392545677679750125765087559495344198321214547153730194025238719586210110804393844265192926216955827420251956758917947578980891582059524883294725268426383450986259610024703129123401742770386764047746838094842086991087911305130515765492257413994327476589062176974701705079363746827087765603736008171238720139030541805479605220582203064873902108610876976014674971606666086221216095906031525291998360344948734426267007074223467807863671729587182803539739747136498901095931378853461330690245348686543246575430440431866234773048478707588629118490589521316439822716861852558024277565414956886156557899705786568908626519161777038945841588411458734620486923581939647244232043574760946802612958782846608009371411077577925488203231856599934626616518207986289331697276667572305500724259086543509718021049131975575640355951574661581587741351219481157740528474724406267451401018471755003881475556963607078507767911527418905239442469568721519417726262496658572858374800621049694339279626007886526775429744626411494775827627191216690224318690056865980673834947763925226183524687521102453684),
  (6, 34669663391386661543782099600601599657766396819550009574385195840278957352875506299044574984517766098238576434531448078297661441563789625318214713105879427962729371769846513877868368333400518959277484905711603896123872514685990678976525583317378868488373122060325208333505727528270636761103567622122601700185940853274673109964010389499935329836836510228900259110782507907871511552968162237526843402783393301304530330634599275695951088078062401979179996919494463962631987511353282547394266344209327647607708720212352325135481606981916194464108441046619315452236774003182003944810850736193316106504034885151899414011734142639408071719740170451884794522880373447998879681413531542591797041574881460777749671614575367840021499644274158474821843920860391202817597263026839390400830947523373491529863645423827690736946045224423132201172835860300556098986647134327492420140887346658213616161515104014056103632360986072654155274699020223371174825413004344847612346048026551334207300695803639133144934710805768710602642761849557608489514713485132235109763044224021547845328935122481067352968983598091140418664323109689330363824542382255738216370289168628905753843931018282280506835903055606348584655750255026983571663163186704255474220612552582340280949070342705168955078220080707198026786225112969301075238903730700662830903171987014032196142622338001633850648636922915495402229632929343381148415654941976065682324225618022),
  (7, 30792846838708138549059928211676125910730751713521154638458366244694792080816215777033613407709779153293055077526842501909129430003897526938792215004617740872023322237780691296962289901116401483382797825863800787665110718708605204652866624971986761469174560788567949317332401468072729829251435145334155311983328956667275417766406510205083920871562817060550467067502053178430855674268564444882232393844586956065331684792238067395466511096902502194280392830014224039511636112079325695199303236781848883813752596637651822454214171789618042579130466420355417839751455994568215960211898310848768205142404733227127532669425855126311874069078957140948278136556347176477237219533318415316620437983110024469874068338793742067877730811279944545326448960612564770372501575459544538156688401929771942726897102259931238420255899051280731932598811447813460052967384900917372623075774845394854598530247037959600060798475536739833577696384980840126526942123235896344830024087404663425460154221517621534482740639141230426644545810707043148193912575853339896820420496543739489038573490128181816180532707160876724063457092059069440862825657870364336259738508047913569571175097052466114890100013228148866378788683125994648634872638395317761601121651768124933005123003065903724508840310755376260285527262529131950380056731217620691799771735190069535282951320059196703241965215671697482993529030477723118201402565671973598),
  (8, 27349542042860734624024561378039707044955761957591275058792483196848176525060270596365275625148223483944423574293353880788803790145083357674501908362319214728053777806262016671713904076978327030157979511206163992559409905218765014272026816591932077302947908957783984737431054901373989486552765908226691388132942369007270114256789444335413311544249186297688715094752060450392610781856228583897908056965416646984655763823561898964511519269512063819976212448503798021375245329533773194114735113005695898537975380981157059451958557107864721118835504445277502689389858994954513149444659670787125857261708361295786197924624255951031481610193930612399328046974196721063039539673156218980080516209803118801768564923982503023452388139282096749734273400143271883001553391814979133424682260394883901119422216564436937349366686605110785391953691534496340588704359279498373186262322601907046168167666216868341247206277590392744679244357628368138986704140929604324754767537930939940476791583938686738304052447814494300298183009644901839275377918786725116351993214442808183326887565743945329510899526297261574274203097769970224944292083674187099218263009378699163890221982260850685558551313317590059116047319656573759518763935913503603120868847557176009828110095733416249213860162438888306320617967047446533151829295557041629967131415366128325117588976693625388034990792907794698988647998078745213387),
  (9, 24291273031515273880266525477340855607404570607667359031776651459281691815456727651589907791010250224771573203041196323959140355540054688665834020456123131734153852709681225646591668835437333039378219297286258087086839011375040219046604186600601407123328575534092159211051698627801224677693102399407625647625915648084615006220703051977705124194191134713611362951153389879979267905241571776925316368580112868590408921670421147225537896386806493308612285558932437396950634445222190144190990319627390227187980423348519032843325889084750519459459716284458861928220855528719100627170156485989265179301059919849958550715459585095894024380684073201684293570211731193540537919121743195299994863379301691006995324668217164507837057783838931342901234868394326716792409146863010346335435054259594168071890042405191857349082717577610643846993242996561950074400143999425867311394597896177866963897253239518910712733167033701483846255628235668784352736780139680905016623450093026699200553374050963611650191121355795619092326719520364971452568257373678938202008308686976086865944802444176962605568483754989150076209117681697390465437392051795339548695101625199288498896242059127418648459487430629161680642895594704647199346315156435523749069430040486468007826613230596818380605677093561850888295348597724213182970041783315822556757389300988572948876594543575125975762334936799666086601),
  (10, 21574984493635506304324507600085807796480625478583908759399656508892714218112151012572440961241570310743085719874560962244037042074411212914330066581375214116108385782653526346629161651879676814771920090952012614239625603610137992111981353597817154180524746020079166083616968250325418142279774844486126123701895790130015389589485412077899254775940651707478938703620100754535011213484289123935488035290208604794206909043501175274182805964432582829981404419919149566512717019752272640983920257290013571652888777514398409042522634124607426316761953196630394865462635449411782467650801412390376164737676428744425890980090202291871732959724293406984401063647569226572151956119699911886883035936502719384768438189189150448366490239653589247478795812468569594992969505355502861402668502448144768525414555923054836517975483850060282695858928914093105910777628755852430482550446613904526140130722411323674866417515479905332550469305523233999774845544626261982845199953632339525604895985969945556484894276126802336370940051170636040930215475731936582904828705913030385499103033407576919578924958947482547933428483573669786755928584739863878055810656295265858711894189309699623798910391212732083313760119930250804271291003531714829478396148399445286441784913725033546749957837426351008149967821251968240032416220016864534650721988177044244335924186582151362299180588),
  (11, 19162435657198766330614042562695205723711668973526685660093629960845584018097663970544624786191777855538778109687590566409809945818404038699977843876849698200347721470609023013493063889167806366701232686313691789873167109225834035269063075479219205270753234251604359945835866273203431398510367627847198910402186122822064678841797138584595507335393296548035105182851774251246549344373961240659323387496239410858052856721340197810800239453545908815800261319920975075491979916010969329629601751198119731909976969900153420654241321046216741435276892908887240945643561724719676548320103253506297164781657199041179390678765595850791491947920484205543379871537036804515735391665042699951749989890924033088887454242866547873392334683260988201753834060074332698383450593700537541195696097503737227131471843822419690054561596872052767024182612464572739855258716184023390541281701091832181192420895170913762479564000481161011606216765781198595521831557195453214456603455436416591473970839800694147643315567359284781367965624056420542190050910147966258428275391670159114433702005901837057035545731128684138941476610272039486867200966781735532377987527640274662728352669639596613432593543128441426641126670063613685198488000855610620310590871595246102085806343400137622238058159737899619124853513078191331715099157289756690307100001707397547674442212655),
  (12, 17019661797778598518031107988442161427886233987744425005485180048778466396356911183067523345965963060284299134146604990763287784470187940204090206874770040734829876147253217048725078252299431958399182059435723865039716796631805564483389217218024684938328036257535684835766197938391120598597371952827639370644282759893536749117901346562081684197945249656060731441519394694771889937205500300318316414797891226826203371224247506351682409488384211165318679966511821016254792458455659852553330487500805713469865400521880784007193933479589698946990126384414890108001893220697142945796723510081350264273146957094530063041390592238998674394138240289373616119227487515829485029588165496523036303808822126505426000420369434803383283658932872774954985842511853803339540573778582485230215855200638723497275082433705233378709513253306460966978338633817445561473431530478593384025779003946844303894454983307735934481151245694809039565079118100313041220058138627738865574064504031045601951634917818592711975579788030353417445380621504990580400510146822211146510166257139455949896868148432988787092610033421228041338658620978792775569399091358798301090474716827291699812595131208594979027856083757595589733006961157653861569903833209673857534965117608100173180985083514530939217080641817519072338024945192595723465147151566454109428830985494),
  (13, 15116496317091409766192329489897318809256842698118363334598819754940952307824845799300061848014991173580061855092524501496124483519271375141151026613345962197682797009385110921189587925837521705238433506041507934112535772913564165063898812667678615491614694482956172766674566793736827007994191281520471825949378072474786757779369112770536831531947516061378533458816431033679923401928923362803178769953230328403923037934644646604275952956743374295896774830387115190343443621792133991771481788445024439832958373825264315689828671673943372196929612271731687379839987156407374219613753184370938896576885972013505321555355287115963781702155598643456292548974910262453734951791022448601177654013707751363384478161543199087195892513051061824885957859604597498527488499812124499065618819274167297363205563865225152897848839681202695168877212718436062392924821647588535108578307513914254989094592641793519105407799659986459509262449815230496968915883912027459618790162047686216772632984286371280184987625930072861631868258365831386942583542725222579142194496898556297579374515502641502926811426945797220941242408931102808021653096795681232426315137075840871797967027378139712341439376988736709599258535352425671033922578956816483075611887862861588902017511515286360906689780624301211288565264535592277475529339660017979),
  (14, 13426145812351098397989736677660339595328249840768791243879530565714241263852114175739831755160855748971333168214012690971352431146451958848092978568547357666053321123072790763856234453944014818104292329286451971249448737619181368053273326519309302473841702189699986955410494773113956162997235059120648748314245453852949381915387874867652763473905129290868214342534570709660750620757513245779154423205125242543917596371981098839419249268613603094463402132382067146706948230281679124623018753959330325995051335747066927158246932491429983635249772564509817475753518359488013813689750242214601523794900509644368781544418513932321155537568308385246912419203546605286758384365098778067384472309811924289913750177516842353413123090352311327040305747597036491537392969274827320286970173497674619906998247105465279922204374363728668882482644863028513551321402272754112864094174858151169684992150676554477704567135605765076777103165585290890068686645362621552145277707490619854460623400051591287846517893617861790108943855104375460758574128185802139544954190595579985466752584010010789751028946095563289651624055522518244889460068289546670333509688612077795537262190340777716012445487800239031555310971963377049337640722438358242705111281817351589980011446253443494807061927998120345862712825401408212876),
  (15, 11924812971615078118555037502536400496015625547661896966826186880905873180784073009882325045493658638457241327172866787827727232003372913618926851400610598130424117113858362315671526782002181870386648504114837202840711734957396827679725668836335887637212519552071689081895223508192518490027266714353033316066364442374681629149252302079490094445690663229868726537290087244697348910774466252315688795570375119057396572003646113849363072254446802457408655069904012535662183611973791263929184955598734558760114281115920901939930167705257288835785255122202299351411700979223994063227973598661569579226961464028898657444791498668799951729854208312719427445908320757623483468886183725926591859411996635479125433313422786733012448966872356206857775395262761910448443530288442407163349145412556598747131248790992688615575033526848178758026191033826082191072462863077299074730155187700434025080535488420883204458107885526731205527954287968960312524368204314263549076004622703450353256155555636953251139579167614948981714428533820011173397391156281610536532448411391046775013727273502823407219697571265234566757659400018407624099911290733466347789724364716300540404057598707359308397212157998816317128873333708530406761801378592865286756143491970652367310299549353703468022919851201115384907),
  (16, 10591361539160584385691070334749875499870234169010169613196677133170673220720601907676757118610515467074678703778413636734775814765163630334285256709786385835734496040033748554159346168643486031542072935675264121704807475014034452161403057348769710198174720578427873663109819460697738851233471644697564677887616382799551341476079035223944925761567537247619049060537231903441101239756069055210078439350457366288090656279345224649209963901983489778487086891009885251700232142174061270547920326981130084833914214680876309813513216616092799081691718325176119923730338294001032615781340859852423656803094999654219861563135509090831847877369855268015088437162211183811031968367186356744784952319632787288692566199697690042425746467704924644162421251523002332623786241710039302891228844865960501740786627498026312272953576443993663963642623979008394360203236462959151496584796734308202658590115213835766342300243932569809761630952061305498861988569509115105948359216194522016515466080357177176753364766857783294014890058586124387961509401377867104575687129573303655445272747117998160244362723719169192643669010158023499435280422970176424719234735102986282687628699625786329716268485405767494556267254000210994162578513037048709718409693307673937695846001158846031539731956),
  (17, 9407018753994056345331235682669066654905510684637454587508678060215355897022927301767920826891334963784275634501631201252254459614515860087615888664189485231455097538952401019591876312688800640160972627199388505303484131345926634590331807409873896498353788027977323095334432086845939341643035700541881856989868428045892954308830475273498674997382614915083018103934900286913523430482891220514673506180335674928653907620848180970120816543922088846627939696860794740119299837491206305366265167794496110417889358622408402382783870380141223071876725857054531077249925148645363050308265572022375718750168903423505501324705030612132934694194604512678731210285595595776485714118974659822143449659748197465522868429880303716965549661383903846139417798400712088608502203306461197783776688769045049447802654075676557143101324047447241892632349463061729261022674205360904141547661266703144627795022200248449022365599865249160944920055871734960724783615113497174215870020378380483174883127964085225703136986696288124423881220823082237729669674245655775688606531992142808092780808996760730925226970783844997295845291643862728886009083083992162815789101757803034971153243625003652222020765553695332796159817365160748988501042439195927770643240346608334102428073286),
  (18, 8355111051305227474363351631957438152643011417458273969568917840607170610599206360541353017292571692448276016447117534365562067384214342335647003152455127658169592312189740871319897644285687927130712192985469024334506699540523074247738740351520131313056113650515343124793713046174702016980566724428099128221028712835764459767550726072006858847775523357437161721214473468340499631510210296112062494060652495874506367813263726561173288829056648433640930235601784616312245209366092217325358063955432253975428070948448219994657119164105146702116776315257296193720410619067254954458539568701622888174124547956860550778335822447727107984748787163920442926384524575948750135092325095366735032133493277361914851665747601145310382542702854464745514708681779573906838538578176668217079811953501149496335274804439167529994613410233624813270626997676681076438870406087555972730960771176575893808687900765593572151930416696841429653291329065887952419793334479597906777400765216334079966344853223996507555450547074235942508894907215246227644937229191279497055871766611105625963673976427925221208090412054236135063217509017644628136801647651291412591174297805471565490174530022181595249677900516163847221380447334584456323560832529192828865469912069),
  (19, 7420829330005556809337330046360755283365229818361600520562409909321019153157091559364138920896714568898311406079468365245582993163107341543000746032775106448427308138920229899312020702404778136678216250147111748529399266606071189116966756378814228287864945218916604401171905223735464980910704999202715841826858267852628079075057528920855310740867898045280731912444809846960595613386484586738121504329130353141445741397231218206612193416060086274070459004760399290302829576806802795536626435452179901053503018871595946769828554649660860296933501888834127851443235109508314147729435163382704468174018052115440990670401614375694138903089482691182443872451921017270882467340296757440572549130433013304890289177811998129374790726894791567016254505085112408006207066397944912532173680765241031213516132069313759950880322764016067900005482409199164729467568752351666657599643627306846462906386241571643128752919344519644941669462462606070595551930434541302007405497776977280752183575253814532264550064197386745959328774666714533327435974843596228445074646792704109362315022837412409296635473159235692135259335937763414059514394239959282618424478367706585151539837082994020949610563571190944528434945956317684682231350491073903),
  (20, 6591020467911198927413559591578777976993890572064668694471241149029031236860865159120638388467768095089554045024434286966802974008374237205557411847432622160334747715280449919962205484763143307435268952319138100769131485041255245089209564525003943622501524479296643248274769621087539700572874748995572742289031152506129583010241124926858668328060352465930012186039397431993234493286189612191193498876718594091834353913446116333933876069979939587480328916561724070220357192189013208542747446610413094399807849696058045263363511028530695064145242004246948275649667667196952995724620243596307125614781108976923983934385519811686988100086042800340963452038711281049400422018470087058720404844787272709333515730835652817776442246503269251684047312326401045018289024364358677307586430001797805495405073102314652996791562936116799036152622976680569672049526766274102182274421260085100633358146711595710773273183299803310574497026807613180688408890709317465912228244660992858055974372251875062414106510048575613509795467155233460171775866275137380554223011841025089692915745502151336966656152689550105193745185626518470988387119684765780044718505714972637667937137916875891151215459437165517291028433631372446406),
  (21, 5854002142728661576961706547257413711081703410809209740221207591655609239549974097253988562285872963694211166211869492436734546573507984628490240710683985450391172686817192879684049698655893943905002027485119240091222951681271615532964411709120031547047986552709659845878312723350144542645988477205085825240651747710480568964934931618412972525317556594770210906818962539562368615573915261916387697205579002970318294813684335621127914514761576277696417811990841254769802083681257168809780192031377798686997116142853775965704515644785515128657986536185314396249291157630009056076748523267839768122470868737385267150464868610598922174044638598033733323905711849790123421603877116639938689075397457776925069304143778537948479131417807572766817350948302829991429513531375745068677052153641906809117983275084609898738323566942478897218451586554886546721675309460743990437555709262839504606453136001637555332751290809075807429043266725004797027756598829609927386415085013818041685346519333752319998201200784785949323289785491825143692098641778875883384451518820137781242556240072889595626176603219629658550718130505388976485102850537102808808286990004314014318771723851397695276072826700945000271),
  (22, 5199398371439400100312026953033555239339127041088758142786877941239743074911043466994095566138554269149739415973559525465570982759973768486046403414739049116338985728323208900635628376105528237418151313293310403624532827528476870409467760182470173033363832236860896855248673694109787985731946160962601177269764116713781743541717808494566926723617509416957588924821155570846277105063081137880998372980383723314817781804405976990022480022384985201021550337970639085770258829025627605157467116911146456043127220585996059369150805440648457680245359678698349805513336801698463197260762226684172360745786759947773474664873381659820196023577916601344934733062623931653356037080398423085956981599591969216110919333034986581033490277622297975122958352329611362140410850679149927642563938578331125850472967402818103111536150504565110582906686004652018986072846207441321066806859986297069518398364712486938106270762372967416950675998505661451994094362941558377076778132232303613552996185885940103956791454119753765139021624186696638971990658711460641775761336682137717967932462347623014374464777167232169767931747048018322411173617267773202855697858511297339616322476381333454725653929),
  (23, 4617993429478674723489326880445880158699327611149675913019403941121686453264053743810827465994244949743837292041470234235413769543937258474011259920940273299184728662739329272267557096421837674123236611013114777224444859747362780711212960505264712598740074693335457176937677519202785362293367374365530743212171303645283999604157448116448697534596488990485059086578810105260651454266575188977713699594417743024417375857561336378571752623556405033794458466067481112823765260146967700894296721878884015184881415815160820221891959390139909713243907363869089455065237332755193489687376941850694524608988410856605029252671665276975369412611455599431829491440266067064256846560839133832152323139380537441082065745961098479592417427596759153975808894895467762028331031480399591194862505817997461797308548482784774071184561547330052514907779391968602995170434317641748834818459081251182219143849414474462942616622895954301000585122645184441033357573077671345219020058241892670999855084168908740981027174621191327244247757482889139541100692376945914591721459450900427665275160754359700834091886132982360971475260739087995107563338246878001843543462718331167240702777447),
  (24, 4101602106387930960908982918742764077277814389198871592021088059607906889935663555794664129414378290745090242890431088293865817766303057086759551265467164301686020434820800580754297202076441281194962265439707743385258027580543509139814806641726090584756907949064666627289379815880553531695021949126157152515482376724363991452638758647739697103033213264643823470271933090313997509639905805707525503002002087028392886042933008611957082797169659350443965841497326550915815586974019544315605834846812026946469191021152790499737580112118301750324748612804766649311028406519357814930973178101179845801920438840514211638092546430254761091876250978648190977051811065657213326155211081379225757332126857657397004627561504270745365133099695096867766280874530218437748656216565737998030268698016141952390628389441595524580400011076345692144421441016779876372618566701280646190002614487650563475430209996295914856396505719570006420345697884642549301442194763145709384185366514423758818261454596462202095186610259113126008779338391822098031911779137225138865648877317031768534112311320983588390806513417767057228921307743915260921553374478615527890556540778),
  (25, 3642954477083232085800997343729725372509885033750989892794176913493074061673726164377946175345146343702176033321237879890170943131718359775143273215200362800748775193043608233479411764801434795254223569954493926825923780848509804161904808557768204084294055299394034576833057997875641568773981868254008149124778504106946917200737999421221029235241382534107308295500335269053803029181925841461801616746215386858787950076352301010878341554979010296269410862486665810807253158543818126580853125481686561703433937658905440650859857209219842265687011762699001352499053280652848938905663597296316687409450575860649291644215181509091082223125424728833104234009394677432398507842109986821832965368119553803942983695054015331079614942771876545222745040261671110271836994582801032000384754937764162224753121188560351327895350656582226471548875554387780684490300590726698219899452564355036904988558010994023035833224258440731045373327221213010912081102859963696335687635687903483813887116806678339242322327529511289475092795453346001580567252321562037928004445832123558255729880589750676887367306263156980078119069158811591195978311762607205),
  (26, 3235593550456283901191746442931442933133222909964191501568469278659427886620141085769367664095907243499685347139186088475778416611593987480544754428105117810271335669181204981169111950780322068425094133896018652242171522985121913423653212350870137339833848761567371693111563422497088680526020374223424386784143926266692282305813026893164153736791324529443095749189811187748488886596431381730791799553580350593772226716895241645527340616489960124148558620260602934730425990193679328766945688756848699379973701331968280003357648158739709647747367005226575894229534264388828885354452732994076382203710554844959416838102320425223798614834223248969270246046008133610442835152584145273005030285469589548479568691217571560843754164016722338723396703618727308545448552034066631438156331141344373638870071532967961766336393526024870120500992541495309601839674052284048075157813576464702676586897963407666433631605693110645609768012762897814831638721990660878078857068415033637120500499060215465297840024185962093680578911174860734583269376084156363794805330515232678010863557605315232957894811736460282476852773200007373696),
  (27, 2873784366470816169542917068006646850502828346682955324703687460588958140849250300712047034411473428680839741143675101330551479368813211054207603043871367381170151645627512432586360740645773790809288305875842890194872466624384386116054158652165990747932037910688102995246970746028827777949675421249425767472761841488444997225247006962432305910809490562364943908810961564752039829523184345439994606569482227269817629019152161412704025286702165792129451059298152313198295874558196682640875241809379714398083521076650547171568956289895046151376440964821032791785860943875258800728619075338145898405588366881773466375252552100408454594352647336743468565743213710501505869419283677459833480084141273749923136978399436772468032340238822295876320822626688096271644135424787347700004870280304213314013844965615523122920294173951900811010813397324236083812596690385863793630256218352024709894836626058891292904582663194514424863280540836288730236016038289670049326276041886359822628137340595077253863333258203478454382553027067678178594010809395942740232982183181780858517594072341970800026213925578425583582),
  (28, 2552433257170884381726088303625820665429699574810848361010896745338070301310058866807508312230189184376977378545788361662830310999515533459126517504109137573127214363665260063743804767095522256583244262139386419004929357745886803284560717772890144879091791701239499707539600582089172308656641074179960062803589588257565740053881223688234262612163806197547280091238214699977506969711870008602579180917798633374170538093028175214070852643045091087731670272267867602601043963830659671461842102189198438616338604196022470742467491734233195481774116779237093108229252730515246838289431924650865285601153528263699167381838050991849242126572839014715140876629391846228839296864075257902531075923146756038240221290546504431622417153188885122459660219175300682396345896381692197864050014433984398969717973014983015267186164171932104984655047558570289044409385812335929063809938359575752299243911913638328304831357340972347516902731403335646583211022767033998945120959681740151098383472079266407514377327596401745023752718196214016926997871456866909124379166984283343225054045932699415874464631),
  (29, 2267016136744159970791974665186103441822790238045096353756846179910090758726645760498409742608502330482458155668732091819606127893832902007178083661111053660257507832286283301807892095073980793040102763027842744372831788741289121832188286233300753340508298038557909336369492244237024795282200097620435907970701107987871498830208259354658402599419853596768818504957626504088182539859037231838000931459934243692968071182283168977854580608959822913380415638849779362546322097049232803481479374239783358810217613276700667876063069197304626455143531862937941021660918683150158841675305447331222371907787427965027915879290882789943218597634648127283282672070594830378205531305057769736522553343493741162408418958202902585947641445204562293095170638267313684455985841021963685364633270222237252568439750300256350074906728686325317632083968429396721983747885933100447917253230371333047910921859754262034685748531160626413074877552811490798599703841916850339095061774577019178133977083749773912950567341111532892885580686477309154010919123567385649084592725636827073363393306101),
  (30, 2013514809768111009795154950930229260385043681645269228338901964184574966578790767280450687672246895905583519164771807740248943858319120098955932397314146823178963264162074437955187029996430969179337982935990937416729901065942279004900807087275320944747149827228647806573388601571905860943742981566129462892200574365396844398592406959038732233496416013555062946842534143421848835935890193027236071490574535017378563738433822543187188060137003212057403437199714152877226590192779341764618886951387128845012240968412465338129201906439588630733992705337758735778006643708253907826782762308071490825853542912417121710821458894780936494982167493266711864941340740388106845509465104689932726063983814898560984197123639337587743454056456520681298438217766729056630174427906994870466818656582826100244403760930599393834217402771051776282865616558065243402509659992071523387230034806440030814606272452617114319376998337523030317397149309923118689430166731418640343429014131367442222844085195226183572243125448315249142769046307535885533291734788378633961394091147),
  (31, 1788360401700246508335366476774756214226287499087506995597464368527495000036188404628973955384920623056817262270242576809711432397397035132837910168046425684550598965865471754361853046737621776478509379920000007285408137585257664198062895233681007710344584161531247861662465376316751044264110502745046999784786303715766605305108116684592020772085381963918703714871754836666677048194166769760292986893580305887334455782585676598380468280111689513406417881318312585210354954359147353972807383015515545861292655548087643963222719108669690942906570093769740116316022305901627521390622902001569616064884879482784044279467551985372569563409410414741854849670723857664121804939923316730269353549339644599311795139474619867337601808267880870163748560498406818357430350984109250726486810499829602939752661367584650125816868770582683599257601259148679054682249594116628025390570182881007621023271180867967706222658468770758298413964012587052437608419515230955105579200957003624940754095172861185827901314171596881350848702374133433786969584361735246),
  (32, 1588383115509585434657573172039499102127098882230471321285705134580181645348489278233897658460825269836681625972654283055780542777493812100232864164029025056575787923471752371689838712947510492993708953849962592680424611305533563084053274108104451537760820774877771344124306918913547546053991701568240283181436744637225222805243877944655194458355337184184242862922330699776815661282039536217442847850794512494002169050350994264510270475790089513113687815421070674497052481503996544037977688176234027600426979478213052528442682562549298288783798115070229029575448839753524095462966438941031112116549151843954018159590932909685422579699616281576384727175087192172952805052967336133649259729074269851063823399584671294301292188444551594546976021300548364804134307613443654475663832587542261881430709856685510898705701023078606582007742039107227914694481134204039282921422372121691839092222099325532531952510463023461000713498947288723446421211538795919490523562494355965269495293370166736740949016484704813610041636857628380362),
  (33, 1410767605365524105170655031415133798168991171987602772011732418819156338709274461561919075083947091125756119194085331195819480326586028365847124721073925000082088697456589157658635216915789121805680577973768211276502556298583880109295499887870259496708437667237123251105491246738320097863384536264470615499468521319509672155490983155269333857099821088941611621089318623511658968720125392327108234931754400145506999094843968153652586591377436162320573019204401571321713470148025141280990480932227597440922239781562586259541822182489364247568575209605892784649815256045198447846666820733003102812419722094044490651978531649170346364133192308329306853151393336365735678874141838928202647849252090275688905946609591699130420784399800342148103565623694290182056260434586500047307047176014732770358163655466314241568616357811524140440503940111542661181128703432775685534415393168990444905736863202092559701458885907967710894185954379847061798298130702342859496247320428608651465909532457051396548829734363938869240),
  (34, 1253013342338662522203071155997978697203122130036994889015085566781811536042458030333784353269742782714515053592129896466108163854218332694484464229040458921005493688014262958180964013641152886008943907166373067681080051252628061174772496094021579678358259185811638743298697062111099935010309527015428944291595824448163956615848685254319099978239043276451069981890334056583781711267066972073537127090215709173327062934319090931358907143579190837314895023256027619656674473755504509134737542377663167373997782093814556492284333274316267953417640962882466274113922542426449059797923312535586782024256189516435463931940850439899086000143113156080651340691651582917256933156988583337594137668031287397405682582108881704185667238261552188464134055643643105192712021032361956670633251258779186084606372346980447243804829718696115433555237440306545090311584630577311142879895332029856528267644526602369341682102453341850665728961477609502315785084771672973811062390987662991265868146001731300764436614),
  (35, 1112899410261104217893457279004814639585016304118722873985523956112296063838647506295487053385343642602961605925375551199758569087985446862379412705701616338136468038571457261842095810951523301306017861604644011104002655436110923691186614926062289537264324160181692529383407444442275781591982983879620993559201948117073627653026583372247236766979851999578223057391900711624882219681457048033943653898612363626802486709749891881395679318802807865780343985442498276116453431699225832341157190398964961732948049093635215483318468619274635014383619907038034250459514873029144293083583702901034309416883984268556337651347462781886504434923841577308087987280555501467225263228340021271966953630592781679646395788801357095534953364615370888214086276324528682789591811896772334759764227227425116212499440824541343334150821840211634819344236446472086366652729739823574727411652422775451660535485894951203276823028812216431142569464633287355803104606931455706512432959702337233379372141586),
  (36, 988453239491282874749949415198794443318074990360251935653023964048843048916368302360397831109023231594363188683818772132672554034351997098826418735399060792912058765470714841853088396388269525537305566230183820912237853430684796347939211159026806211498361374551530819788034970386757641513587101339508011007418098230222029282444268612973717114952396766116990674318803915906427017481844458252616874563805372017593991396222760017985085340049786511322014369104552673619319807886589514630294360329830588638228599653598939903034939038751696008156244614564438737217013695945717127584914054247096928821483317194015800911714749645639987754350367051224090120153923013520715538696097034734176633064741768673217622360106727134360204731498052378174130413089262928386481236064405336927553040702809452007240657079116997325515160079912956601585058056621169138897270237067385701081234016941237295234491776060573685328248590508730197099986550475046923230011963645390076163633065493),
  (37, 877922836197218276536702883095608942083686879043464169873826828599155898339829411251044470034184515500431976172837777724425811960344100010819861503551986835663912302647786998735101850165383573913455418070287971141575641786336846285726091120122434760913878755986133081507373288741926107254057183922457961454067467082410081440287346052788734693237373381104090248529187229027740840465267002657599704642303560637859212725459384570208315814770934848045622998655359081726080053054186848908312649209111003504932397470193095380003775477365803084410395787098219326369927875851029335572867074963751815091188227500886858139801460470099597976074075955188407541011385791614123921246611524495772716949517835384724736861828895114099236032473135770008220547093418111661176802230435304213652604157319374358119636277300134016414661065854501635335829176626292450805118074450166476614631848330186356868928016652048349291440641129887519240936814999703364082437320907867),
  (38, 779752117273734983211286889576079936131720590028874260701920347784685500810082417039627540251406104003811055650560315597261175806531007032415956324294085322065378790278366702035465184942221602387316879879056207896202894407787299604728829872885960432770417981921673246382856366901203264004470565652298870613630942091213700168502603191854349602733689583673686598400377823973496840376113817186738532611899203610498504951656832144020073752688347636329155148882590131558803389209531254341649318222193051773273097111503593794954215091508007497985698359405136121397919102830475771764505616147343499484308401722022704902763626375175125083353054752895855421300460830858156060145095331974114591907218117077122889641424201641574381983990631236226834901527442672068775242105497439973851458994937037261954781249661669073356143060769858222642297763288150893043404410784646567110386616144637186515128180464246726902543815606273822212885803754637418),
  (39, 692559003277969601769343759656214704792063543328411160234371434790016569651811563827426851415286941976790315900444160662573416360142089787212710104920493945551103949838878414451403757902021067166138001557161580182748281960126424184259638173536105043782568671901889817373747027635692805719339668995314654782430585758366281910234949000340318641170256466215002805173087308657473003584919043449922690771777673589599115578231477437283640795215846938495193710961079641239110625119839415840052031960947559143700036546837905669679282101028651396754399032887590899486754736378749612326460837152278402723680433439971141058800377480159965061491315501798509160322633693510537390177324750159645797210421854143877012451607541838683337035970224885156200458296767712600508382721814923386535925845680444170731799898478089862623882923901868739043575125703211048347834322665519582824241718150541401098111815721669998882324410233064647698),
  (40, 615115961060705403672123647542734024640889470755255932685551146469769899909237261396760179297371416113389796268958188825825066292916089078444018444062777630811819831321760431630506800301655080086720747944456107635206415475464379889300084704824567033927374967313474602227934196991103147185814365885916810433731242969368351563384900935692516634594549166824305594265157817525876625817883419034821860231276768606500230659469740093788035616518520043762062832977575260379340818299230057870150273924694747148984957285777077011787751099949185036339511178079351073323044249706246248250893967043648812759337997361528340260063453356901853280011364325644528538946652450025743347899011392527647474592827345602010696408410222567260049866169325425069390613463110593104122787202389718519019669408537693085452816816772837897750170696192771225867939207712592932372217142307283161130768957377172928615691481479272278443009),
  (41, 546332722244854749148236566656223339196165225701699954450255495693074535875688799323660293175566846672856283119042962346361570855759938995915681531181299109021945516331953934714971489444069872810789994410431617398201315409409767175129690737141062681849608926335813461871946672467149239939362917196243808607056023644748903866321216177831955044286801213365514271423699829131032103649547863776025504941270741806542137446971953830779395504741285628858968528930958992536248618657423546092391935911450701131404839308946643020458195264576832637096827089819051555859541681699683922987126417155751038255019895022027900717158768772239580130074974446354866482333089241191199513019812557163809554274127280937065664983595244627778406438110752329791301277544024292250054922176883279171422888932975295036127744579863407425719377486585985900268585693269526068126426984486993503315545875612162765789276938),
  (42, 485240933889455771295009945191382107701125367176650944226636841513778006588748371575077493945351414282776384507329679369939086426083392885752639554077344802194994750521644902601168915868770773446039653708379593523263635305637413580870836610033889648281030048929217843332357681564381876430847791424399968733614309528551898728041595238127715922280797195918537721780959807169496670235791349075168951099125325472210321463862989153766423332523681139641236954210758332072700877694388069734852380380057401739774950051980204104546139986858383186777726178608219144920384011328637708714904479470658196558959432940827122676425238196974800770642549970621238281300568877883226259522443185689679879335869308332696680453975190570769179063802437560383027808784873366218392531863217338769268727411244279502355332891964750233654165881076024288001128815366634939697208335890844504891659130839),
  (43, 430980525821935730305465697979410383439821580473386802582585372392743047694637153920635275254827880242209167480738522713848500872451828838528528935126329910093244826211768678339663316169180564244616426128820954684663258362628129474216994155746065848678540910278554247504130386595498158747211813754445890502873181764157510174390029714947092338702967693423997192340052067334067607364879928070284787713524965504920304051597977334657091014068915809794180536021606347786722342011928015353709528544696269704653556617070085613369711964998094861614581784873294051978049251492752002898435499033283255288944352850132424116800946266784688444261574250937187244321127193485677849695564623904871810475470010908416151558741267688817396459049296085155556066173992394310525526155225569706891806496933482759163041866735737860630164265818409051109830243407954390164660722989712),
  (44, 382787602344140425140260229806278385772405859230673061926365567392707560951297611965311445702933196015045247934546985242422852811841720405636215776796779689494813781692072418066065602373281263920610593945595158080107293101299503984809320702525477981663042886478719352606830095355737170291404630449211768374213513329047490192916493328965279694382992802636931223335712946198416698084135493924957685353452837654809134463320642576462353789956778452152739868577401664358011271819658185988757277909530086729943409243137100184954100606094197717749247862958123586502282466474076116387312365742922179997015692104134160651246817585621844916878281755674204190632282065503282858865607835593169610193587062058992743258705626237652483620771508464055258356197208787534440973343411999583287358912934920786321612794424915491132736903281729091589656231849449687),
  (45, 339983687732519873169807708219865695902048632357873509403102041188141366565328871844113960985292750223265529167119597568547516507327323057148971970021981611587098891727512045722266626590619882578764200749598464771227386976130823850139658476031330570636915670656875564894186099007737581667441434557283164433551227582937907224034491222239747435515196308655941122442154971644418118744811581018229826734800422934624814387906348056695421869504983972470870167524556179002161990312651784268405856002778892997330399829094793788679688532819226398915274660567176153922169160533969069697266724069660232487811799871951167964189235418095470640288038063631917261905113170756749548729603312801927782776838485346029984950007937221454973047672247155699681098531170281276264430852638053546908728480143697400123030988187632792633343529789626810358),
  (46, 301966174493294873478762095601006242262452275883433289183333721750688445636097693215695033171386217109951639063719480593067198180356248771765830673586658550400947727158239044016922463618930778743486381054879979034847320391321404436729141637307725026809084375031361899150124231610008628065553110938807867557865369191336739565328231989427653284287430674724707119374541331512102903616264347423709089571297884902091242420818109883332284757184413575938470949015828254726303540381398055511799123017314950131049000742131738610103033654367193276550472982046323472643679009813451409563387570919258557811005719956339195056470647272891600332024285270623231291578405428143126139047551158289446804395926982566876081673378106855431864375182477972720120022043755139957591188281797790948289267791036118174289661327731697660995520),
  (47, 268199839665053433715521297819875983936185860180911472005296725289953539244980147099519487080066580205424550443958347266835847356849497611735899182030952007463996613184784124409451662077580359970546295853535888547879089898450741641862145415774572915502233127503637707204033896536236130282698548774668314207387482019082188762374475050126805946358284069531405371732611942358890484095553191394804787843487290104767971503015752196248672030778105509138257614462160347281757199993411427651297397281007370576454795684194371155467574980951380192621052462202697910698707474268158660577648142427857270809076521568676534113776295193573441490575589006009448814972840865974791292714310013170167249926611226565424489833832063200271618216519668123848899025219201355805654369998352987644686388940318970889997929050),
  (48, 238209309757340323077364448575834066535243058114331976924390321606079207268961444080070283917804729419696244488612848348103143654550825137170337875888944450816987954844636873630818072563744285992369175831245081244417526444657769934303784473142061379526800961761468683727931165894925403203963405660031033124422677651373333439856207171734977872795519361332798141749537203670980938384938172156326597804909899578672886274265215602748205953053608049203701413871093249079324640496650217510159581650799492400896742118203071184545979032356960991487501361043613464407831369970236085340963890011503338981974733369729973004111791527923845313761879730336211551695827732617081110535481044336018328990369342927929536885883308099543571146155294566785481328436260405045334442629418551445554361617544),
  (49, 211572368298304279369693233071242136842206373668172047730472594456070990204568456369430874118831462662101690444899061917858217560350254457839532238295808199192884791927933380211542811954738655967157455110375691351161129516668452266630234505238335906720894335840552627274278420148909605321723617719881929257126038692517254752890008486338511795221734621878964070022307752668722637869701755408855896688649268482521079890592871579819330815185896095062320408123388783474050492771035938065009796892583175387616438657222656059902078624159956875108109683427934547498296861054525604660560777612018633536122357462541580679086992654762471729319361096909022008475498597533723769313210067354829546738145126502166274347225090233774300879531341239617361372096167642507595014748117146),
  (50, 187914011727400768742851183887109310962861340991587271946651883138382982161519545662074236164630473894216870614122361821627474104673613616471433323617648038022345055369313888646713176813788099917737299952152327243142999905724925618620003157310291270764913686149911860877730950100587275506864484763683856113532411885776195236762179286342791634983896851484380724324057608135769018096708270740187233316467507106371994400539378302904751411612704846056457364182346998775849111932082625967813578684985957057014147657451594788191444567026770387859391179668953841267786194835389714911502862991508716560684955456285246621503719610489912055064173249030092156585543224728534865743327805959754036357847733065754460745571552916303446211829976226660149851716817733967),
  (51, 166901169977314979004479688145385435732792234495084507856656510395584245824950122192794254220297465227384565234729445029688582019448436677400210970371134931673809248085847544589123036860882404098734747402252731434293858397307314629347951423649493893722260126997014663373794395872338587729262222277491178375790925920129426527515148498236976012365025448767782258228384793387390655158196407169590610311280859550352997604636419524514805547165984509839909236711259366350126143896591929105582832039986856311910965322503773146094967375978246657228328691450789141646997611157999646739470787955537969549358839993905983232765516909032416809729664981437586656976634158953608699980477256432482495473727358841582895373123239898888748928432768322635474),
  (52, 148238017394989198722214878628954016239485396497500425749400584363516205112425293913069427155216845380017208859230791190426028409165152768179948681549477535398696221661715804957792370950792603862300883910414916077816161408432647355359189841433541719946540732384213795409230991731749019710176150175049752113622004264870136483171673795639653938414143495047840186287466296579864468373820150681361646018441371509533779015014682256806286858419564942888819644326951644219235651254705591370821380660444683961873205560018272091842809759886260614478340684583914160684469712972295833165616205842570691894209760345444704817043802925188573217009453143044876125768428987472355965723499826648927602881084948556615646359790998143640923157),
  (53, 131661808027879795924252209048937191987020587148861113393176713161154497443530426445148591621535646350193212739761296880338901989150724476869182845306421516802467045943732770805169537092134417785782184935997037479149097068477472665574380500353982749832880955343593688670169130018037288943066676351858268468581049329076825650706417578557038229967917695534145761002202692497637071293823670409327991415729119052065945725918420312160804589920574540753751261382213235615292386694299493974415358175764451426301711365985314062377354849568277277724111062230953181054661599776998719683744078506845831425630114171206731281225354861445822934737659863129547267674772107572059385013473937319894288726883651593714046226418),
  (54, 116939176590379273624353057317927396438324856426078576913452887053649577175013833539251176854445190555133800371833907095935687618704067742688913348467135366188555725357430607566876402345356332315823364600843107252825892774999190868112387769142427179942752650725180806364708270599243222792679219229636091580757039555055291843261553123127343549333203531472554593709280622755275907944734664811059656786382773313027582125765416708330385184879185956773897340865526132660167613951176930499055916331558704620475603639879926228644016077893810485930332020789773496161529927713010215981362732686011953982499681069154998275083785922640290154679260471664205741986589652609773986623541839808679271684467533),
  (55, 103862853064931189021278467323614817682560273278451529266663149369136981946742356986802850494377112912111199374179658427595932437974784135643242079489162954171073057102527076582333797659701768805354783452419542904021610335689921884929049570186895626109065185947711774057240212188336643734233790822906991512303367028634677674382463538055311948349459586464940890203533158137062973705696020076445518685861204072223167337619928269490471204737550636172156449805965567611628551823673937091751542640986184274936333882226023183361179906296789190086190603747628146377439461463350814908931946175498149642301298734882607801929832663808470417817125714344787251500806805826894616308387627476),
  (56, 92248744700886346626960619484911361895468344007802586136052745710577384207303935307906517618762867093072288562737414660136184477553555770298842512914643508764457119689946629527559487490923550636762450741015846117051066439245344688744924114840104807117030255748814149016781231711337206710186128990899482447045339052054151173940988167585813741246962172613533084155767820254303592608203861372769052473730157910793364988348526413770837866777471468541470952071700643773727724824386082734016437154678940742641259184970592394799108413903232312789397896877896789338309662855767542022714650901257366663246248060274005532092314571463419615338447075934885689062446295488836),
  (57, 81934158178869706398690825622435491573021666965882213163295354458185774211018719380199368181076906571988541092803554118111910723057766285127636076276870025794489576943122589983199309877600255696170132488854922465358242745451390321756860708163694624766400683698826845874499970792280554253307626935866422791741454660229744793863582235869274507325461653530578221673405625567054243489005694602813790135372723916506651455003168058759694583375748430834189053520357087566173815182194669325797488347892605828892689765307675360892655806083476323501393984132501025321164858016527694962860806366428075996917181815560306124467346407915266299863430769682404688),
  (58, 72771428250243219319263843544785346629600271733613656668056639036155500762570537696119689541154073519826649754102459898928992459110318827056058468299031009528582135302684066485896622335858134702959075351859671516412723830497056621823646697686249329721970161193157291246895240888014616188158158357290349921379242725437243140274648338918506271688562427329513114738353722879994105629729357790854477587066528450142048307477488211269449557017151046599784704217755701697692380688168977988044876930066489746451325556661069612766693135987875177873733532720125377483856400695411222121907011804172150006330700099274323569275194101679506451096),
  (59, 64639130171168114405137994546112865336634981103057033961334962363360343461448678724776430647151005136347032399524841599613668116551272617858959539981674074810924971307211136929947525789652543475804320258819840565827561585765965599148295925019982073717611121291590262647588811150501502983326084542537929615663110370665694428032034700743788990263132318187836535379199653248450341082803019284525232996421832250455883156844122959707095570911352159602165918908323022383820674556253762067749065990332692733055040590861621028879032019780639695829272870367822701311768107860394161492411088894419010736237138702216896176905443),
  (60, 57406347640766044553615490083465920005554527624714191928043536337151830354881831789821394502640484474740716767045524128415624539088483732487073314610329336999655511317535159787472349666061137730486901541310397737785995476039786203671484365061455290288889515914784479418496839685335822405040498213220067964003137830297267549442354753704108194147180764250384674131372920750347347606892730638000638839865217782283171840547879498825671744317274237682059826791550519145491384085645462429628201740743273601963274680834201343744965247289430578901107503083756887742753500233740289462599791560439932879598535493),
  (61, 50987245326894716511831229849063617283765537822167453994670896742801191844192158456104542009586493341271225015284562302236491892341766677169757744681206824880709650815417533716287915652607556338217334001142372770865621916890208710160947179161498594898035330906630931243622623522641455591223928565814775479194229751611721744859330400223964542234851176922620042082545263412674917234500736598556265710883579737184792507919089557914705760571187116630463095176287089273375150858418051651336370269359883273217495159204747212419569757762491275958002728948061196496566155263189197195544478709616),
  (62, 45286195955805639505990832609596308780065559061961563465350824294595869379085415480612626418944269412134270580855400454791847419265154057449268906049822445339703141979699966708843940656228197424815400395007078090234130484347531534641203797059554344428304945409219370385833158616742724053831129634986483851290528973898162659709279105984416765389786393308381409076779043257171367744226319036338995878885952223900190167907906938249259904706287793200044721640720408542846838848779792776488545482385832453641561577618698346022527248634773847974988884097938339836044057596058532),
  (63, 40221844503299970049915890743131851374471821356056371346945963760657820656843313550205125596386227749271516186737767206123656340689810282564992053447209654469776990832809647645214496621621843618810488420021055990029433132919459398414418767606209769288142137496773835199802326430020623434972217008302488183788681584686496616216492981016007459447698945615446357214159171820190856446565986252638490953597901304146295599260088805682795841909147708475692309402931643244688934809996900764736735311837277431775864834913183873928157225908263327948177325850227806687),
  (64, 35723518384800340180545685093775865658514910804992226974428667472686630983972359208263958969524988689090279164877932025036072999207752010136216064226636098806511817839201967971677574367129539601771892453811124962216424587993241376290914216973531414282253499598321293761983935418968318930804518905160453976927517678655837009529381280736789506664380874228653413195107755158693916613875987427766869375537036283848653653311430245427810523487252848210403688929508587662718293885538249296389949511849231674749535011459935986980293896042159105239479),
  (65, 31729440664531992331456455931116090307987160390632977763890952569023261502526332362440594000443374834510232187508556738717910817269060000363156177766425505434465443952450082914772404484474113094548433254732733898713569822237628162135540551335205492574132695743696582745355293538020004183888860673398755809237533652807510385046447918898460732137482928511962152750618125469581369204667296490933312200503465190676118534920783054429463425820559340715918426504584098049457687209038572555427490561892220322819181555437458878814721624),
  (66, 28181902359578698495201551986824202553088792353929119738307051436754106396786553952078917426463713453781285606797235868567029725270246214704033084674697678123250835391741162895174643192241367734759952119609756909919699689691407507453982020721646786968316500099484516565244634184193495915670889246223702112429123764707467541626522160788176004455106555099765821518484512940102915634964009278257935305113885085775233653521888178150790587122424258264029229718062817077636947264204442603216162496947984915816354195457),
  (67, 25030115284779089836079554107816140938005644504078410327850072234580332714189442559618173168760375794386770739954836927302568382777746041243046332636008120285604213450441608956764841047076015843022274434417317931541011916266596143974044248129484735069418350124968711352473168272600819289972962759426086210150442267295638477368579875480699395476429819607090551404638325460131538675793039754791016742781638817054680833194631542741136511911721568624863278783717253909186973322529099434711742885646163),
  (68, 22229912821564865489158619696505944328242056292719765698715755427590847720728474748744058552956829447287075955725920052685555385295873537652653776312939434737607485210539663078275054367089013613861552141819656550152486626361379867866832398009634097882973609560824470300087903064984191860117835004936569638559989993905965104393073319856824458307788920710176835696240522860742146137337471374432429283087155787490939206622682573820282764886324619263755545172491514452327198336400407231),
  (69, 19745279401337116503461318421886406665211385057786047367281264778482989415839942155235995492745067553361891425867686573040744043983446128368123778222643223138411212477763568700348968365232735853249130691268757925253225205581585200785384769061565177463389495409380307247869879454258910513069608459009462840617726395121440459016502726402050863501921543765120372182821720902957168262364632003901903657403727403129269860066128031781742768255603191398689980243390525919372),
  (70, 17537331055217034950090774890400343111216305732124020250658257717657657033109732280189405469445696065075120462843425030250037405875093254755613528889534696902467244307774547552426818132465407810543126489457615285460735771116153087658453453791646903950864360867586094025428427183029536389990232853030679044545386123854681838856780060912724865792195583672019863833997593599667587858505555702484236342198456545134237837378485352676072792268939993807962350),
  (71, 15576293884720915020291438689317159490499733731926371457143537174423596236151163126272816937659156888309544478215431382617775152198219785704712065553645786176224632444370364471519709409685748515639094584062046507588680866619078322454985060627800537283435094961875000733731765618783787331664200613102373908850340637153602029202970768341977653042613953935275542519264907976978008274232383814375200917626212456714780206399347894528352448042),
  (72, 13834514851379072360757604378482610513514710973304154056649193962288593003182418992479786927210244191212432620660219897297346303683764534083777874758096155900196739240760908344850460985724711829691696322027236576886982454373262555868234643245102322032820443251137629362542674038600914853577424571891148848769095341138940653855005597328127299160683197585846947531413068216582561026332433259919134240933907041654624220840014),
  (73, 12287343230496368753718942910365293731255133787444188045889870045715918359540478737666465933925082870339263472053724856326571779327388172439073675905233045852452218401050719607326455012326927619863836916986486143607300713133061805384216668816668120348057377147081085992650368757870910964995631941020566106496728547913708460766935332499946044288151431633374669359446342287676173157769527286269173696380802779),
  (74, 10913507908952426624879324135874318385094474546333797029839129681556114015866709773898747562152540098867073903868932423861870349571009462144756051951068412306315174581291153306689966831576437617385360544923965120824403525495651048025796628302785513899045785054503428375468428234409583816113610696806023969915128307779405262193911040246188048524571048744877844092317936310179696707115916354781),
  (75, 9693587744657463074889802316924472162641910988165878472745370089232652983014673803308147254801966253372110699743531378408794502730710869534609704253028073009691603262257353751945369324278057034603481760320974179489616260271597116899288488011512124563628046283701184870763947913510601942547652306177829026301346710667185602681791456341656275431287830117942442465130846870222121),
  (76, 8609239728192882957977702100360817455929347737023039191489895363589094371775310464136373890995701466218371068658804741404404414301820345808853059839988977236894414158682204947182413263364630584448102186397680106086972169353896793807214939613486730161623852249781594872169774843882668775269627574983718881692391570609585597022284635627306575052417816437250844196),
  (77, 7650189520926864085181383503528654927525956236893831348371214336396295328815407185841505749734942336930858110343180056489588147256596756853060177892974446865431484786988291491145845637737787968074786309015740294663353315899290470022686314551931601654744192273564025374662031836145927296310344099079303422527325288628971860534135960974971621191288),
  (78, 6791492645246935274304428551283365614816565904657308087353785666546343649435237247783787639204659243371242713906301068881263278778734700183050186447601620667897741048083633129139704654465102262199276117563570243231862129712460311565082398623785979442638768780348591341157183312328087771420924278462656524269625742048286636473664774),
  (79, 6028656650960780470805161624371370165140032573741745485434403984171686354804206605051389285130000165878000613706883235292570571789561378662754423843846531923970302855997005875344357576479122050671284445104730131654808326260191368200064677957149429193215342923692641467113081465090899623132511266106443637180970454415),
  (80, 5357502032926031586177847647723696732511629401173528815641392773198135905130819057045434000473545720677160168157754492889475124561951880827263713172047326485186078978689278405241389113409209578267476133899623071638100061999457849075258358194036415096407612459881169266427578315680486672374210856108682),
  (81, 4758454107128910027310083001774851549465687244989281005608713442136724562614278767885918193814071272647782500713843962083994158139570041156166037338673961970460775069746117142385195816798072957330493085886116656478675544954991523232770371134423164001579012469803598891573354755975948968),
  (82, 4226247960993450819743267521542040483642134468570251037047284988473623577688686560183538745720966337307162709587443669012567149328925706852572631586254808742656949739620206921540807570898080289080436103263609378695920890937674514568253773278877308249869968711627437509817),
  (83, 3753758414402353448996577102226044026710937098251547107635917673747844928768462222676942659386101693823027160712142580097091244370682477143402303637064286835454036166887718070553544255650134308567271550440630890340757140335357156866424381277020480416145114),
  (84, 3334352507343105505502305920929583042034539718083214143891239096192397333146322318837960446429502636471886384156095577652101356884062658778274882586359539969242614889524274130803285635884258892030272082387828696502563188838845194971510737603),
  (85, 2961193260766430500010637025805910678121047127657070544272546920854501657682210522886984532721103506144864189431002897031854022456091026730611835882875425589103395297537618562027190858283176360391250206462037964495303328545798),
  (86, 2630064543177713666687863477648854407613334805517575281673543108144707757297859807793311119974772998495039207674130856626469376335564058937368988135266532293724501993262790375475957563873837607848244499913391322),
  (87, 2335969596222566026920399981267669398239492552195434441730212107620523191029397138551486190158230398060661199518657100545952899637437967926709666657807580624061956517975292483647282349957966393874),
  (88, 2075126306678372502642967990231015939304206009274462033231640551849812137016197118368323034814285644824402148849524484505768797957657014178683958711459164633489180726772822116395258),
  (89, 1842755090244894875027536567565474396082582484257704252559915374314994910631550717549811939202778410450880761834164365014137504827910352399581195101524933014746398918),
  (90, 1636695303948072388684452740937879380533298227161746037527677452313740378546994890429912975313604984628554747852730501182938792661360442897069534423965),
  (91, 1453692952570823606877676491992713492180291457974579849266543794003923039971400198647605365636290754991193969933436058676565088737141298),
  (92, 1291124939043455441579776995926605855023301855545476963449221878755494090068702220334401332771895514139783496055145520144),
  (93, 1146786018079932065766573504969343733829594846106844948862331874845762725334550077242980042420463664815440),
  (94, 1018517988167243948089684464584398923054163263868479657774702843908985225365499183879148235),
  (95, 904819011501812453573850465642318019068949700853360979259260638330525476751),
  (96, 803469022129495850081655277417257005270711234120557091466197),
  (97, 712017141864344647669492922837093221397134040),
  (98, 633825300114115264837370871880),
  (99, 562953001220154)], [
  (0, 70623351606971364567897305746070896201251606218940608682164010951712951433097002625259326546420673719823267292204587653264604036108926322948302375013315015095157032454762120428256657958301547034110160584506480132246753597984799558676429019679700067645257768712598331268193950426277747449889271648196497983216944764996645352040136257681954649422313341496271195597991448784163950754084149124181821342833570903979343446427532025298728733470402094597352563897222742386102183271227263134330452009292052622158911945578889743583443706712411232293188194970442646531936559317623084793178273427433331199114763750147174189319143672398240348109703459564061534929148400510814195685167465442309986884914167397086356988434656386667909181010308806651643738983427334212845410394566830188490831254493794230419138116722851101235911749802739413243133382661055415486800069650889924057879082007986438407150582098353590205147101021457104174054465278515462575844549964498908801391772401160310318309457201166587941369000540407290671830267201257448063085189582730147960047905891312214625532110565046485708858370229466188650070991862036159166361965085349612001286863116157982896828157522442020146003346724661835654264246424984569048179962506918755691495099669490531146157661763931727407697713835947358214964721874504776657132527235522666327644689538541170116779770035326268771620520648123278327432883466623135914363107788348742567434225713879182185686736263389185862733894342092911730226836862261324952218623219363819416253940891648),
  (0, 70623351605648595794548449938000167520959809347260410939708514468518981295993479992338896215673659593805073072113919359835438202520772442923644387290358639121773670676066533662273747065347823776569523088687249512458382199905136036210399935811917565202741788499203081225567324243323636334449307516694476129892203131419766162501530958633025530060804273567144531638588584704926402632942703308850810659841782186783810129147877775331697069472259479458940112863000440075688235123464839587369069059908797739741172676947281766939823923517856805339918878339224023272785060096251577136370840799146464026150781996644818665978825608163704733303417046925035346576989715770146204152509375899831575587939242583956989076160100844786311814543141325827502223969210297265876951086195879671917911071022492489359229610804364506012756616787673747963039223252571410432667627033982883591403658825714609524037090809649153667400992189315049882733787942875232372875435107263628874004132496037016019869960486721463676750634433862049374945148830368371806599534559028476314224992755303724171434363320417649723142617668174284368801103180574222842418467392696450231773318140755417891290408751523319515304618425640385385552372733534724269713731446776660519011309084541091606048744913310097257440700748578331691500669115983814294591733821142628053287854468226034597554103923962004616559807573612818541907431869628781953534962292353536698903880692761521134061787414659920001083896101868860853173455189569035823501357399304254282052447240192)]⟩

theorem ccccLow3_ok : ccccPlate.lowOk (42880393669 / 200000000) 117640333800000000 ⟨1505794692263563800, 286908797621527200, 296419895442876800, 2584485792000000, 1148660352000000, 1174730966250508800, 0, -16814879415655222374, -25222319123482833561⟩ ccccLow3 2 = true := by decide +kernel

def ccccVec3 : List ℕ := [
  10591361539163001266454922179773932315089072345087256228859295035354588617600973734633944308273554492832469966068962305469974724945235621683491525290514983939940056019528417922946844542555162325231984110934165726891718305136973142083789683457398258079386193250457331063006584216647455922942110945864332681482685557621277371772508321480740250227372413690985052245283939190959699631731653787232107339075273958502104439993406144003154230148205791149443078166344558386212869951270587403725441184882725959831131955656138174535703185971654638949487774324393821607377883499318995581815279902164970330754095436191671624116101013547681509488163880753312931993968339260795343032687793335411757721873908213083034226647125625766212564041118380695547849341451969270573652684717550265717345187261479816125071432290266213201762634480542489348605876154489723224308127814487623729114449711232920151856546943349131052174991337521970815275357228850917496606388391926931691432058827046715201695177162511526119276150929724807561724882245904230375074818352219282038383549093115552727305629725839578525526325475465053216600315319436759006672901104492911191164094199763042486949796667774071369438601476465388657686807270783725544099135906865195596592744442790838054872342727493909322137600,
  10609813616971746495975894573360302097755402233160124735083006111322936793987436929379303830914255926758113233039793008626730194992262136605990300252929145413718478147588897597790348396053088438193536700071291841072726003434817778127949764437260917276291215544554035783746924543069856863678129756736771180719684566123424992008823654283898020502928050544685875550651125017911092571070175810976006381737539367194613665429754673207881837390193439447126589802297722881005610700174799701574686798168053048902070907377235220552338566252659347836503004014144206794739811275599392915735370765727899967468024571477060345367968228177737695863033939256486310666272428367045469672149584480591688920421577652813788677145432629916398642120427472786502659542454974008799845442165990313860080199130683634798616203194330212012825130977963815279627371476563947538842805516841290472734440254374852785109012169233902081474566834037061537909530009868032564801439645193652973918979400375189084926779866238338155893873763645560390565429083045269447189383479123109811162571375509909149115310764369054768791583871425613476988254735130345833698911018922833901275878421122482782178571576487942468115269504477482414140525963213647385257253478229136789077271787201764782090864681118276533691339,
  10784068188524681287845209760139674152241535143352892235743229267344124908107529187002865888171739479785950192864463428833076536286837451013016890921313852497291166627716183004608640743162990458975950390339199536394847691247739599343029843957183577997328771356667273724525723761778420536810798420725745896274867506582827982098958254511969663668622483835132877626644697912634603445543876103172273079880116529984322955296009468015313667452755153423162967029780462194318372148278100245405482291159450780022584594420428700623616420337984235095663994805671756528949311385770892099570339465505218381444804833071792629391767305666028300828772291222874930654197104931103736861518160466738188070976090318819816431221481777525293309873980909155513196390293207564104120043113782988888590184122086635113837244607752285475408522465965159844632465904536488235937783307427445502119294931686024161824057662592004634843653452412525678563058465313787262070047535730120249687529982130771547254740909984506412189517297638927622562164810380148752612482593074767618217598629768558535605196486211348284783427439397853635122742886570217925270934600949240432613432419326487478017526431767949022237301567803615491180547333279492723423054150630332610857402120909962247321005747410954259057458]

theorem ccccHigh3_ok : ccccPlate.highOk (42880393671 / 200000000) 117640333800000000 ⟨1505794692263563800, 286908797621527200, 296419895442876800, 2584485792000000, 1148660352000000, 1174730966250508800, 0, -16814879416439491266, -25222319124659236899⟩ 388 42 50675871574088491267377160309248081042099255936000000000000000000000000000000000000000000000000000000000000 ccccVec3 = true := by
  decide +kernel

def ccccLow4 : Cert := ⟨350, 274, 52, 2 ^ 222, 1798892210431383577756212643454775245892795884083716104581967448094473000000000000000, 13625374822949529848210664223742350849166936636796922612170145107514910000, [
  (0, 113487351602535994678608831895330755291044484300264039119651462716638113864396442482023408714530315502946592555445789750033972317332329866350063550359122288698034695870747921371522034951308756989683934581638664016347131723802095352920135449711074414915154377188772887343715720345021288606313209574400135361735959813406178215543153845349263269906526096397595268614258034317125213907744850132118385892351715886933901120003962926955544188648422046295764706944233763185672190136943801736175420669137428169348077360697756070957866494348437240120879767634624815141186594236875081068891709398918524424760769991817064468227052891085899521981473998979305545273960965210795665892842430830725451107462863624812913118254124461662508172957858833476118932782123168545190718158337349581338806358689993142152655208919796968603811957529530413753166406108280623257726119061525536444267015998475459069723952404700581481977832691458236626673876492488154773403277949250318207438898278222697616898137780188972268417838932273386438158240305139554672584305759467775353746332546485353260216176543024991778832039178077321908134978152926469620220607590670856578763080092121015783912466250546904410417781019602916072564419169894989019093471100946026057510440131224202859457664504458614927340026147639579424924226154085522332336507904524081623735610921675578565863291110721134048450234294659185067430883570441408699289935740629580654477663553225538391678094412390346008204390919870909594153403397749108041914439650890374133144636541220636422023486025117025793092625007405536612354044751020899789),
  (1, 25199253908052889236429062603341318023606794936264218878677025961996318004301863220216336776875435410155103017655483627269207923041932040270364519254298355031845697825509036763221832301620867110392520128987367027371327287824940865886553010059120183281421026078649090563118862026932588036624370174304154008203143736229468752393634175774374701688498919391982563543866158871776875115765591556284738395073006786225983901925668077213931175197101859922143210848478811549163724896663909705700580888391052746478148295873070545614753828641407273693872841480812581242842674335415576266507975075484326551061357737492917718406617203565186168487746515117432590255214952879452682908477020553701770777016249944654330154508683530369571859560971635187374212645706344150263379854064296320902663107454539144016268409917507421076669362088593472132026782922648228359276707348557355179276872316890753484619300068321259589672472799982731783810445612954037187745043103271994066103847024893101088674858433348273378612938166566672794947519213331687320963259146063435133667525920706671990804165278945086901654647005550720807034397936400612188841136000976892720858827295898457395800749309033720641177215145639523592541279687188177146114361137907453447428678145350922358537234631709218901331565452955501549221514456545282203554800641220586154458415096988439318024403311330859874979542899174976924836129997066967315550841964938138809388112362788809621673834534110430652883829636177609975154373057691463789897927982465320803024647321342590302743248980104635499403668831348220074853),
  (2, 5595358487967874913222662075574488178312744571421013389962892949723207065548244892577230571413526483124431632008664629203810977908169591425520595195936802047644440525413678233977204705076220304085823137874995867293313441130100450563999901223778912610812415077202135134543183932411150815105177382101031701774895350622777742300579339651004801253865166268137396417926898712379929860000071580339156514131895107724832494257189655835504683790848592075600774573912536569294240160555164211758041196557991256250077071269976060989684291098840361955399460061637407726771793744908443010008713895850878423960431649901784758578016396651499143578443807216595284375647387950387345265571286359295002974980333586131840544587372457081755851293340443039692173276395318167972357870293720321244400404659083388894988030616786375633987863888210668678472827386811767759683833371078505426410123471622163975794989855170003590590630682995339129480942546230088874649114526690536641059516272318463434092712204889888323543646115068405349496000158113573741982475156241146146888534085642779690007358705852244711574218078897645804975014716106526334705780994206376010892660158204324395675303233258899721719080341048532221000764665136863292344338739493704835340157643552116153269979842813266848777155366772593308655187836104133118506119077292429918062372277461224249571062025529133079271140404336165345715865430361341034820471752512682501129587082783359516085406031368323386183448307045233290627019454561948104656293408447173154290277257871693004329190712366994814906476),
  (3, 1242419140550045099510097794640732297063441848877238612925475228681281521618129877386578402044127216616374140910224092090528677101220513347935264826574609462352938892457448858776079353540967099278340708513953688446939499264851768573888017742609037852470070686651659923359869051917386667523894425739756852683979032406319623746166208728225152490913116258289338821855771339702961178227656109570146460629099265254223323787790620512019489988953890749035706686797239934755111005596190644120749594465162262766710417464739535129326707349791319388724875144500644261115297533031177636867902187951578011782065755560473482680362749840448098730875422414367103634963544892337070281230395197276758007710269555384725092595119123687327976218429441218525302814431958650181366978626078642802083162720657382932821134502983915348602290540936916212651517764167139669782890046294105397665252124352812938402418376717487951307300440452644926600467736854755560096542040710235881529553738028002592437480836951937981698401557127513875864994546226753832521075807329486684536852751647981724021846281277177526284839803180350180630012476972669013065058173252154355352000395756197367093777494995506383397910056207626259933315360738347116914633080941598727335225596307021285054176380403674553781461514331832967206448144481701122035087387185076069540362065162104101174482088388486144577174632860130751163017235449932114126829960280237845615716831079083737289765545997666360160801797175200926206247663054101960005953548033837023731628809081534848583726510),
  (4, 275872465833600920867055934301663857766313863146766446839672158937577983096385744338348629961141790446429595424207076927804706267016822550554905501803285985161529296004914032647710860850851670866452029703702831899615409825847065712870363222735826218856176070869678338906895025152816049676050564746133169511959973733174185206339313265660453118377254222109419244198716685386853484445554618960726233362468972809065205829262017400693381069159017905136854228701639959325228946842376088250691315423670100291539557989153842140453840736222251341887953327984906121577469991512592204252980579719640660612094242333189354546383844831098424964090181463110957203833704054465490452865276214707730548778252844432021318846184527571353547336122122879634189799959050576894933560764221655803716293662610057188671553425584878217313752843800822567292499122258628330923527272582880137374348597610751923584510024423652870242430891938880590377004830646012258435730013430195428657305561378047572672387266009751186143661524044777015710208092839401974772033174353755956218345603370973523405606112846087937536389916877887529194879350634915100125254306913597984366742519539228470855128599896698022178330160827886129712572557760974739633781453030176675741053863884621551696427315454614848597933566102340528907351545077672687259562581425183527696584549160724918668440257640226462955882622668912276508509369684386347043027399250716113349880004803205256836594286717821380725970859498975002680219234995887013925756390739404821722650497609),
  (5, 61255992992388754520087761033405406834251657661680462202043642357309616881015860427184022109517417650520382944013730586615607056933286592493189167305206459195027238171448701918894465093315836796787516405278893054239175693537384810534769819662727664911059155910907415124659522520033362137357683813629853473322218240052698478625565902945163238310828222349866564586459374524999030998762680931946157007420825222577265654528717955357580176446294376476327602397387349039846758504463842009563802169124656925895018873174756365321719097131432350442565401245309790094162808988193041555080071405981770212103138290698817731206315805589648327712733342463937972064512220595248093449893861104086837808145817275050126817449338126273555971689469965276821237906729420606297425562339569505393124250410831639464727924143117818951499059488485430657556935810876490746331127144890681192736957557355091800952271165093854923570355114656197932595293105973309515945888858143599024679522036177985295206519850734641164129475247937369034574282434381209701101511330190120907820258670666779394118331110450016903996489559799687675426358666481470107029685959082035455209454324473218730465804522380278539579529474021508430484125655446355633936162015474241230990839752849042689497496183329564644474658618112255636511830465693712822011860256660190040841696653163446126772911924715991366273451736326090354595893189467156551500593344805668729651801214587767252686008015428393204497469812100477267970374334915218094407963185352),
  (6, 13601562783650186217267524537629593852591386167090380052019611880144697993309277048677524970425047693313055252132929559476904088183813809027551593506155947626133649934946356747069824306943298721889519711001540985589278958186438600410328926832296382569732674271349355937477612797986746602018258928017290138513890462944344221449379578061461185344089444177829388438153400289703241733842409286884754772859725090335150181848330344902382335857071214775903477441556455858542991269653797153138704786599772274942233291669022867454500346199863746209535304799162214606006262022258903610327882936300820606627101951673577131959307155121234966035946708257275981075412962235542756328860885266303002392322873265888017306047026043314287986541875331949842485001076483292639747114231391603487508630421763473603098614559032216674342696526117402107462787790268587680664354732987290251951558227133511489872885405215744266962594623526777380449939015794596815120691871496830448585637785339559714483535801370143880606863545524376273516680906088315603931958080800552304506676991191033352303835034043297922664809830911316017840970309701761788794761183597944933284157776658493213042506805087391902038318182557270946261251816247378347454219098697456306910915870738280529213223791797241423602294472562075602791350536135681277723910568527425962328768667800821732020707545820500228985823430728173973091883240243327992322243705237770907611063672665504855285144709318104967468972945176009329294292373986817),
  (7, 3020153630136734287879706640380584432364596336842343387694404536847634182167709578071408080115677028965098194931627428331760703982090809154984739138843008199796040887025553547944748099199397050058341265015571614804327865775847625417026599545599205452479333069501655486794653029797334594739555409697001565902305862610185208787777241992314885644647182109079828535762901777098891679428533195106874067694826946075914256021494456600227437088795839080969091053527495372811494824130347135238647266254907635049026811157167317485399634286121436291265995207727220687492132988836860593411357662229797445768082143741096758982109742388228154276705436725650628800531917458825698754204545635433397063555857525618631563865807072852710864356442147728276302467163843183445270976818983536439969931161323726251817058056590455500555289230381657804038471908811451813703063559683346141928591908780555494623558033965057151486181954624559167881206643060028745226901016279718894185405383363159472946505894811369247037706980621111977550473757175463073605562333073902908575820363368088273699779997009446310204382183893260091044561428379315793876880523824563785948562826624279910364675218477582910644705767457114013200984015280841971046878663594520133467899302499831670130137979915478512014312552081198008795051659229011117514711386941078204278035993349079781837226362406544975253579863718014246653398615621286345720233511234633347521033410243413506761407480646622401795167122945569536),
  (8, 670608819399994812069241651502765817340360233311412638904764768389485888369667871300528045427047843122870247039323440181228194771994215390534506762246976300030393669589892704468925792445085000240692734281219287589886293511695814609361130829703665570406199082976474907157141406039116823598574026262195668101962177343742058171687313802525186734559651244584162255327588178805059408758125318587710471831947468445655993250513922354657744256364816956960509760126107559467711998143087118883578726635659770994709235753726175701045188556463550584161877849930834817584601228661807931243032103331238720289045957554736912484252706477975567073295071251203807452427150151214149673446718188567656265807459623895347124278475261830267660535646627032073742834111177917404538674903527119711687454536127728154851966779417865126321296135633914196202158063680087049255835834577896101161402480114145486502643734183935294833962642774026816214982771822435349911705792627174462835970292035571320061642047285096102348531384364643164752519263552048160223080317166895746076045731554288477773426129468588883684780004896434421437488805655740924175336597776294941135496709095517697018444678143840366370659667275337069439149096646461949202812169840482025486991737236711924572546330142330619618000999615550947867528972388195985775258741622615804375019840560178429883590271379895822253267227677293063211272855362316436291745810919365764572052797322602431255277678901143571682),
  (9, 148905070411011818156163841111855521093133364494246608026387971342618043677663785361804022064155753586110716776046610804811750574598100208115314630498187775754408470030615560761429253088577782851853366591918133746973897227130506331250530334291646659057776018261500084432444081664121909736846214326787500613063189265007055258443021273028462036868870995167777609329590943057546480494015478446186777983222642996837481942208582942484326143027393679639855032828186124067071536739467599593426500709921056263113724129831507892002417769520320982345060176120723377139093658833351791337053927064810604952347813870536589830875497651227189789162272896695198353052884855812999608375666307245384958212246738826451622821238713230994028251878690908900158417641252667109102146585454265398711172283534262468141610906533831972061201206644902584227216091139571979218297899701310072131732751166260159140126750371661264152493074783538054005871034292765761661485809123227522748610138142052619305577161740250773655945006140539213499323575162657663080171009824270046637129299646020621854374117736797656962725288579009253424942397048939308322085592775166124730119966660450780134393911239673630958448027760853604969569590731616083867474295621676193298075688106188552694186655180157852243325015484048781265727771400975752883363975681341195797260317061272582229936302090213025916462330749925975710218323039564064859104451654606661437287401311016626553114),
  (10, 33063567530747088464551939876930052171496229059051623437705721774869995482279915307552948048829394831660554506576513767198098689843904259778485974725553961821292840843713893030086597601140598644623998896869976770714279569070753461370328675320313150198404352068918119588015547093871704345393909453265174710791055086504044397959259952720120079442396172679401450984037355054916064409676777858552153629912407369296691448853062671846059229085121242193477389569281343461764504087599608639539323239585100224356069960077184212372662234127534455137391961543809758374269233367360122931622642711275032056169519478056290667464961690561327374074182198358593592167258144568718615336877211298477665392376039663090892288603444765947325535972645994425701110667753129433035657090859804884127550432152954736092466443341743824674345244123199433400225199617751044623705266215543137499736731251621763094778752977159068151120588546790483346046119087541323683676499120949751626220870622218007495829248824904696957034533694543847813272634645148542050444751459153456025401440723690777384468228126166800634051893718154613660980598288340149198850825901823386339271855300537569546677230532283204296410438931649554582813392830408846221081598886610839755355180956795778201620199264866139270026467976405618042724882931825812378776551350868056048328615904350592642648356192913704869588710046312658255736760212376523374967016933059925147173507),
  (11, 7341586782983843724992345781986931839870764561520601886347334203125310510005990480531022771314991651061090413738314642650049811429706843185619686722852919303259292906767820246807762454130302076510657487707660780760816623723994344756656823040303200040184687721651257378578326546484002281819384051622659469736082931077328578882526272255547708608356862523092850617747002765461711997557879485335624387050320343823332606274755469612972676635194884053730710044969722210523725582395445231351432555238713483652063242688619425838933659818087782335758540150278141582656368751419031375388470102516452272292531494767212776158968660571478689251138355413850586834342751343904984546585192163477155035398144278836695380609732292964122834039072300575680012652561960989543332438164033215340657673367610590679417928605260757750233718981952954155869763146311457020078085881602548451824886893901878331138224064216534559725188327415921359276596886952951353629201837154396655528343001912145266445962655497836199189459607096802887952180446786025064322229118366258494906440140902440698895718742651909334068405130479256541712785414246246220982240001738363131286810858856123878530786663716518181244674073909018818005663945337284186764106308417219630687556299035401644836002210873826620315934923581473307703932902283475440215374418678275601396104608989496805255491042794104072311626384196601734474700589442787862580844488),
  (12, 1630159738258825142849033836925345387897402480253175219462520480774081406324195461389994243049024572719305667693624098677695923292349406707580197658819673014595787655983825812107813395767000761294166693700080990266799938456914483007822312136480092509618159735380250214019372237479744355026836465591066361877249837166879605609129421726724642081407700690754436319727772154292381384181003316151857830583150595232138954091140454180734833778031352136343017153000752330455442620047870279200063604983532306029631732900754778116123263925597190244552097686123625852254448409125277196463090911900055567870802445560256607189624816687801727398641237346262217341887979700666010677511475518255178446927306054586482925010633639640516092591519769848084499375340266622158548442330086940255332304386026718791520902017020671583464240752672644067139146261242375886278456917260215041427083358877186959227984982855275443344045087813621477947350529469440520028382251027102020261111708740172747408315326500726118936765018254945714244321559252979822529405928354777298803053740691082639946022397463705839951763647190345731402713311774471173557129161405924133225412660879538225122907640550399922759459226214734190745717253765192813971695866440123735029746174046886388801453698039674926181141298459713192244007505210642294779803704111414603177856009328085169923234037943710961204165638135729145256964039638),
  (13, 361968173743747147960759080989342905732881999216233816731082793839539520045356740997665623404766207243174871852495247517592199719894866615372126573989370119885024891359123627748264905072077903856316239289195500503722123748613157653570486030667787424760643753715935217124365088608301814907035125128642317623358719393917065475208237889040226127737902134063616389783733377508879414151132207186678445122123302641577369936047080113402509521157064950678201572728816401856819444462696452849853369539555423587429099990234617347089639639623880186668415145988441958919218876725399380097970673700042523604667438398643995629064774509664721580361968196727213717882218290049995300368427271272197246366785793320251583246504130773019013671105282907348230559502883454823071254268088512040828465881152643641455235807507641518380211863938004384586831882083323648464794761067171005987348535152191894032684679434368165770778574955425964082865445050559923132059181627700220233122785185023718815465846865336469432799207695457051861486876579243993736632794183302103924668530151592644019036618453563717405408803809099661935534685506363148809134421312617551596569914798159959852078351794672855599805101097345448288006339421675162625265071350899553469635984934098482176972963798431710628565457870209810038606599459039707782005347455081035592008614946082903979067489924880663069833838808550),
  (14, 80373080423606529580421036622656147201861473960546879232523013700531071930751627662044975863605254462121257418728224350907690591193695635940836766307835450880403244510367025335878902476570096899434185234876762861008185541148536388222203301787993843973224049629362626933489047560719797918131027761201257703268902634790733109791416795605190382831691301980024377230961019398432546496082138698206799286179010625310217068078266003938574401480973639332160311752954503297151104091856912993326899916583623134432181175536198375689571941914211988454255281524056897648464894691123933427133446313690904830964376353560543531062372775883963334148096819443335747666674005808405522458890950064873299949400693540872257267500165889640121733186517405827708292061776528468411967022764588313726260103302660253485259071170942854348217410760245875345258767031695856285254845386448282265611916903426188888895625235940939182001760289122552149022351367882041819944079542772122784536316987956302479399282972726110228593553945079366536209195487747096738866237150756989891180616809784276284604362484586434960121699278471899064802570813923804518530028725987664592653954697788185339665517908645738921825925613185282436657533221517088442557516185857676576141458059576371904505666243711628882563163594070656514463990223485317651616624561707579115272114872875785638897713715439147),
  (15, 17846408907916653722594856841220199648034802991133616931371787126497234079518781566574211860410677120098213542072932337888643986845236557403300499518400509091439225434592156527169541437789301862852237915094130688584932652755584696707324144360800127888765041529894675467926856412962915700396883466039194809902365178402784850792592216898143998080004643814367118004448767018426327040047791487308717339172162295272702332723350655773883523828363685317023095491406631590415086787927029074900750323218832614797124160230983608009452587013781102317614586270451746278319089814660442740134807421127181153503172924745653147779799752795894638348868637520815487161266281315505429486961238314104757285611017319460180083556528316370301423238056306098369556357673049958091765239642443351235552261324715754280974968258006534480186134767710076091062637000620876895886692924373401773645761499361511710366529875633056575130669455171701244879717447177742036501291789137893752117223945162262892797887770742640135412630606921784556906938984763084546528528483698153306284412721576225432865008830101764404105448940504893101570401545786429700971325443354817193364510704021468106178990097716026664205939193132833810232723111117032505937889846058553897155703112903791691488107268819575469128051592549940016166579385055022354021655509802502857015383462632301572),
  (16, 3962698811147964368727721700613296453702279129032828441845126553650431587929707690093695176249394625227888195927897982753512350799902952175506442386034541850048206462769858791229846017347584099127168950535617297131474392258500040780232356114121648164371330554846767108151042153335172913657777288397815346726202609540380476997904446434965844404078409812088705875319589986618957271588573566853734067883349606402903158747607435144644008032905652950357525046247126079837075991105830909353055012396400923902606795596329087323760706948904274260140523583138080736414381611372532591088428415241297162174172305918844421112404409667530392215515823534535662580195217312671335745490925846255089443056491428275166692220302215241924913591533999375113293291996212376198019433042918005503685449587645515703353179924103325541198774272906235024128317518492270117839418450012157813397785562565940099766862445360648664304832385318065730857494212576875050592486111361317815637272832885037447566536121537051064809046052786317196658565981634551417410347302218948269837015805256352406797538628077360852695643441940665978021124332997899783551256949193367197929194403947669651751931223674000756477831307916553385802745806550698433842468232126488395026581333761805626841459519460841839238379431904668736012716126518818920955347047533276992629),
  (17, 879895891725535907537149132322005923501941273756350580843855089675501461659822501461116609252967519862734788817746781835947647727054834216557646929928671678344510597116780631375723743597645511193522930807857753039245940435526455509225183512607216499043830502439707182265167470986613590811042214754599508836999608203179295498891467457479217168530820408803693337623242148033516533065813897615237470265005587544059906759754651669396566044168959470269871855503617493755795060802007055707645455388760615094356511850708592669038045782127964449717559075438948677949343298471286516366836749100253376368772440050931385067049944483914009755952475198822102654636409583054157696404067075329260659388200697676476396130016798096479689547816022093883976224900689001195395743656742623799001390009587008465466582812351221190518914047564739818911353291642141502875792135734368221760858305818855725039029396966114539737231188867663642597121750597216205329203552115898282277981055369853579620812097870078419632967592534967331666974125345368182092743955694180221457000415580938269655503336507273355435758200803805241057755425970681784961483270965003381931966114099403132213846776760290101119852230176553116445762623313392312186719737913113309290507694977040865180327316308742101259800003834461671093033259234287577763373),
  (18, 195376135705025654961064140152821509353246023479958677824123803838547156772806387385995437604903272382684034183672377029722902623029717202961772022379961082843814390307090243407414259014393756438469063289853775694461697507317165282369054969102789380125581465191516124715585879070547751082437350430621369336598216755947802990172677899587401962284147523454967725201798891625246753456671735942087026518368974735927298925877611099757128814373190993155141114367620711187031304394861430094889404589238141442829170869954801224885536076460819871208273942391273743436596601394325023487708951024777513654802193430650762960387737531218141390601908013280190016741131251489908289510736754891777784416026575102068718283359176879182895303373753638921709509775439633550654172911913952370124817305311420166177788791328248038951343308177110425508826419229704468676115613971275623829444414093059571581511735920509585059519209484645311147647098984197291868212508628784862501122464676866907659815255211643718386612899858795118218234237013219244192281881707068811464561954494838251909559662330734568942960884572194476823477931451195280412144527641298778274438805015142764165018830691843045568832623057923390563077174184176882616679873497904231950504101541563328192294872173721500850833698577006470075931414),
  (19, 43382216866218526208907377901948252325898814959811440075099957640112329006206359850123244326864089915699926347192274775822670769577553147238258527542528269197698730618710144976770121309127335638950870218467144250188258834753159301317937570104890228551199005085357478124980586609250294989345354637077631153722072076216712958650379518644588059694957006757102211325777699895975647322945641178498255118851138470375674989504165832552057614829494307454246306394620902546430194366715894202378895307474445076076875628125633967998344988366082914145881143845400568415302899866347329680884972754213976391542416089965177283772573687077663463634468914704127946795694782912798003295198546623211907485902189668552107216266308295814159090909114302775921773876320751023838362189672610856161506554630821722193462882112948367630357671063315985461367482856919360045696790291548994487742204851852601311634621936621575470166628407581615419768176557458607390502904659750826309946466342636667672634296887742037050613402014062676817932744311580492335369630526096614909836536540474641647837505386106789517019449678332296502917061582342146731990171882313749562661825686914427674459228909435611891809955090400801039741175245430531722573734829835541439431402232667566525678783756775731143988271573),
  (20, 9632787200656835195444719341133585440952572740074732703521800505265807061730708866857987577540210063474870088856220132830632947571369299678392665272812568394657438425102372828453734101081661520011558277648624882877441212514941464719824395470058835846822833308299357281657263208271976157871362915087607383974156832386865516412912063152526712639903237809561983353675575237478180174139572839552677288044388700969009461763163619779160044659238759163308615987915632930691060630414781531660146543676349003025846095544208808879047100820546637995513357710510283863835701976884925207740292900600192414465612163760826790241537340016878556707518932025692841531114969286914402715047991188036528705067474760588249640474573150965190305212634467953097718298707858878362887708588715294937818655044330420758670359352514552034027456964513839812214450552532041741379716113140866439928639971699018360376944669047794749154270619428135745022660207461927794903102486444787344458475786388051503879813409550278332348988276518806358803005410818496829327325538108874863977762793109694514246611556818012583770145705814345220840961409021820723376026740329689827288541030014703828574412528845903352662554284326346865823227300030494434224583841677321019646862652086973451115862693749),
  (21, 2138908429134136808637786767448718895209660677828230187798098244470956891265563513399226262950462399129273473048628894369614118002151015511024471280891481325754554405133455408052306581245951564632759581055770546981856676315527987079768435190767376910054733248356915490394708799309322448516116931298090405911216554209810462554290738682665896716692088585905832583040458065447175797410475842863389652403420177984829750045781537384045896055745851029831237353831113184232018774242251346469445243836503097009412790386732072965442266724579724928196857551160732422384978012579195028297219040888082419661788916592905135299320106586850936104692591681835643971709579105150806327813773370220244909609190238338711571824617592822751102886260722856651579351562168725358319032657865031982856647607230328371849667952079096152291943903569638404311762608357937618849906262744236483832879425555882540126972197675953545379540751078001414685158375421626405092399201993182350940014774806787656618029057157036088566258162049947954991203188003472666271679876530215696920037498884936836542936742118539649207682393748385843421562991842575274230170220555179957021652835607406445408860663177483319669551348644073732261162119130443629070985409850035905961414738192727),
  (22, 474933077040119927232926799677749592189493250425257611997329229872001496053758685611282511673406097282885758966631327848485732140548172156132164109218783051802139843156352175581352402119360064959224624603728922418374496595301345666452116698393089248490767296916354609116426344091919158430149735287936761632058874706399454584129386487906677045981220604242470080274485984792909677704910055695918940293629229394537929793164775710803034844045757905712272552168121145676389076783737696151418487642709999636220125202416099240028542849267426197217857729563122882734286522296966388270027129822545227186047675067713147942763229960808504668153894770759500041448641142899632751374283974194470771693707381139828754505279608855803334593324665776589101051088857280456556061488362040176497399761912622650180134435694412093122988872833468389453585280402919131419777664248109016209862709836920909237782226576290653516174015281230005409441973206271449826110520751983805712418796340188667545354268960586844270210346501211769545098273199133770403457551443197728037339997669968247168183457692196927071421863093572229931493022385816900181775115903173562658666720232607034744608017324254447780655099117100779163724001826737174951497001914752193),
  (23, 105456327474475471424319752950474342127270160772996547299286139949696840178407530595620988566244275144340881362218702219125178119757300229432777694997278287933444676776985448677813782270397694084882605345810424020257232526492123591573184994829724387627650958393033811961619771511101490971407570176349225890996876114929259733391968004193690992774561008941787249059170262298081375027314679706923420855554352897275659997904170561931435635769756907165264245515513405847366921569537364614928248199082036521705118432769875131556888324489561023762747606196754248720200536485577535190937091497673260205429022092791506046568740587363707980064127186820371974610400262092306607296723255877879685742311394578041357232913659625819902321873987677713763933153934994215137950608487305189406477303586001927984495121070879434177070351616226455938450763672436923547338872680700946345422785627961006109553356195037381578006361699973801364490195795360864667206354773434382340447901534421496947102081869191424650167198499957713988739788318522994608465535146546804822731560905251910409835854884092857528536283368936253559469631999482080299878733439757119790376542521332089485618450606703591783617482007874818919064009592837846599),
  (24, 23416008582968229574827048523824489607065185617606291145649563165204181586608508949396878725652406262335495228847739736204325742931977667609897465330317931611463923759306754075689444404927156428234390307152155750306472381337234051721519831089236268342788334548289108575190357744085241680342841667071976879470541844992568926176111779783828978583623764678440786163580537310942289279000397186973436013277114806696025317330086466924298835747257566022978009875447421385256157054789988836754228246099002252998491838578829141262922627115057321726991998801605563879042902615425391705391927301222246937549509385998281841610784252535886672283983940266288871619788498903287531810140052449273945468045599517330851642251833403230569811722611981387070514350290329568663235725601444428599265912910134735025060208423865643036782096950214326983200940197235141049065422039875012308301041203239125697624456344965885650112730565296967328200033440308940710506014693833700854536697848150951155651675710630967156057109070721837721730387234691353436345909093961519614916116835807121392245669227530802254629633007389708515637072386283642282097684519551886669291348885189571627974820629302831555903644736250009058333),
  (25, 5199398372049886132207176192065407534103261616675202005247886740419384985534555164980923233114604232234805893662959001278199974818148329618195456735762191486864588780349382974047881706794985707401728018857330409593806950866420230036653406327734852439506633799643841703607713028557878712571353571317142088988907868841416011482026196069481791538790913951315920336498043180895388904335010300625741207216428622069804869183557283959053623258123677997725394165443401336560182860394782800922978975834384403462775944325575893029589390676296604968454027714976945217913920230332629650075672027046292365747341124523151776525144951943335300981218708000793603215134478249889613927595118938408162734237920382012361178763245628377904240757228154352195954791019147934720658466561942568186230636516286043658701718472099386336860752845506737909012047920504373778656584937932681849566170178560964609120418222728142762258956722962691331682423077432439342566297730333605339131701465608487117606307736591463685754136102067619862258628045387048775988625995439034376923249831202990088817058841408239612676807090475750950422844229137085176221998290766755726318327935763163802019713976429893549039063),
  (26, 1154498357224118459474938740460154988515457105558017216518325029910239582541039962123629159451578290617589572531911210167935219550071281843649121836081826680925812919434014867729938460988673000463775076629675995259444254673738647636162142133469052720633311355084158023941440109417119539500956973257600908615203815213806778022988772828357718247366774889198463089865714887108445960048566522533303941540228042200282007827168586221018971700853273698255818305235100363121249885405753108593013799796334936759074486363468330023824808345972018716845752060652341195209209750231951223817962109372023897154148301724577760339360510335279158601279804543921128083546510163953879103138645103776725881993480282460902427163107523355804891418578461706990295389414968340669911900641827491809054322203378196026646763524445463610128163369437537533104729055665555563592353205409404036669465527398600398137075483897882541487198764464096173485160259999694556242406076759177079897389113987839799640150968510976343770715506314668108613024365044094516435411756613775335787791495853841577318573727606121476964718923809734579800673642381879722670835552120352636809805611008307705273568462),
  (27, 256350131648745518791340644986250891156013240042022326384492087058789952672548232067252970459258217242011183938417882824406118993566083144885012036662614553173867769652578003275392986841760359360151117299278760928677468713453953992644774154431807180989158023864898481241518672918772317698510217339321548814167664337136632228078576089891537145574916664352324136338008764156943841901960644478500092759305513873412724722504675472005812320089637657360640018306083373895713379978857825535205303275048841601350813398946416176036999425922494613713630608761260304077988555529623194646426905348981539051587431273955275177996896769908915021867366249855516423286053904173006586482558621069986871906756734387788947193136234472859976918222120111685009231938423931787269269681202668528533542463394296076110680468299876825844655635797203921465800351566784143755409544926573633942332793722000501547025215484890412947998837536197877881019250367388788882602569114096792186406873647394339862434059516628597827876589356843436370818961669124226115595682261221383363072662326024955698386940979297173332704361812398668111745668181616501221545826389806442069858964699),
  (28, 56921163705313482184691937372746518878995334122072969807747965008244304091564460358325028337515468834366323142945039787326308032266453585644469098304080411833226090474698860045221758217933667836262378989571972271523456335836347690289835259498394598139626768850208735353315801714545233457103808262147915886088206375957274535919071957667280664530102923835182383159951004915229254433944970999100395831685147891336975001315996418684563580347826877262476114126424865144263104197745402399989312381811023519546635693049200603495113085902333995730173329503648524188068510037786367092529994849745183285312903037734732123147634127434698596388611519897844438358081885153190648367133198221722235403060055001454161797137753713671661493643163608935087305515558134452498303760107374533781155584303107470518293565686958927444261910269672680541624962120020558542464163903002999444554456003310366999447026979313980376946852861616756405722070992214967490339453997642824177310128467134746818682512858361329069877703337078538104065659761782820245031018356915445341416788924857430762618914209904014651943907665000054858904210217332238813152316049463),
  (29, 12639037306622183592603439582523810758216962611930506901117864980680825614753860607680349955235575068851095749963636846675646920898386491004696807258039147740789128965120786065334755867435170823911382209621096270460462888003396314412098428872181998609207652549313303675766575403523033092524524049322499412312503338232600220037310132109803829781575901121541910488057751067532073213938615405707418697723628372593837945346381995704304361367481388175969549504076402644239836747308850043044251600699866458164509699616966566898582642258349475072655992274441062802828230248164718955231556495041016145298653137577526809696590868214995449117161453684299345196907752822758422029671978552878586143641850459420405386890745990535177054696524515754711142619621909706481019453468447947752935546990233807943283732471917968066520936138570571401555740941214015310788491738914938724287333482608924273139788166420868719295936296682985431877682618574548199495153073160210959181079365241039780443879446667706382460736429393819859206235550478453747310154233724418403347044968439261498703475724214749815424810824207060245480316723523185),
  (30, 2806430045381654546111302944968567793882348716235544881504163119156254131467713641257986038756776506222251860297449091064954448213395713769516530723417781007721331008883859849813141056877582086701308001795539180379097386652635649656003252711192757098732185279878157037533718512246099410207705265413456707806051032133203436412012488176324080388414579322769592743350910219103326811825944467919137115688326787306607027692990305021712202480395761142684246457228282146458465639936627132398098115012078262438865367784585727424676839914371664595010096551478669287421334225296635902649784821009371449523465812203424243528995821713606209284820957245353800839921009464250502748001193503865015225700061665680022184447128667353257946123729010438578123776656278950366570414588278732141678573305928373577923387944246710678278487595162495620548053027316687819595441265223762049286144409963216005576503693034453940894899193715492748305568258698524442261771474644047251368365709156982669461613946162214520565453316123005190689874232750371556701137878959727854829690489661248020862039762605558827323708890105966421),
  (31, 623152650724657185412528967176274169873701035099140522474634140453303432984730279966362770956124810840910605656369920933876787832354877531308326311005866535168777030484439477914681255594439648402485342545027537538040281047148267650167088881108966726952774032345820938453606799813762801986795617392047428493167090361852835896758000690701495759305981400286566934814956629173952689054552803006567258791590552296229966327482879379106084336370246185058046350910380050596036234324670064083093059356462709346957452439427809448826447622014529660322334896649173818319935937820057145835747394858586983421378574297830097804337136524136652967648363623825990422123702316984134543665169221316701768143128216799418128746359802185292190492880586691165340610686091434381747118691783148192578164799515106669208165226731390239849727743394332627722564578067256116679978119466780160730344740341054007506967441932189368491277836840484541771339412309073947107135567107421572155014367600723173075101947729228066037957030411962246943356598600450623697373811932122382846558154007880075502627674818153981349),
  (32, 138367684127451077920890341822045274687074380253982849610703457084948381148610267903449572313711960387889700699410272614958074517328015961948949127147008228871541377068937571300981411813294819659515048446725989285753085749978948789245897530407162110234642479421255423155860883494047178077425401515778002980454653311937457120359765160879847073447968981514347666710011651158276794260404752657481322007139885620605448081755905687815425829618504589052300551833723441166088221054379888502483012513315931046991630617457539325306588819713741314291249630994410878484308177424972730759485888859448242365111103985045611647419523714275206745347527957311423923539087699003108949204870074789089045480538754491624121278596352501710706078958701808186067250453994166963816692636450285802809787443557585629423125619136932092016525490902115032659298582323256357473491228484870366971126767723459079191654727552851772317864614166588479424201228719884775833543605501772742905786377159360555773250717690960496789364417238135452627759644486580945301077958863069861389024114515223716439355),
  (33, 30723797751069234083025361324289414842977981372467280736068132256724608948915575657828395301978103668754676924837147467833226988219946837763638536078205455552412548762624694285899127550552793481341539802176822764805840807570814172830815635481982591972275555183438400839343936503650166698717390086380663207432556872796018777661053658407871041895286511619730563279561252423295788409715614875644647280789625401967724063568996798738591922878840596825825779300449576012120379453665933304425534905575843540478150536043600309823109978144539040484710060547947122811329768818086416956824090263664870882542740637036229163366577435507492142394871064189611523163553300929407018331413783403880240876673408748913260933368134782315512458363123156357516879006062715198569622545598393695881896744656507332245687768966551768284668410611476827237524811411654860363062324709449922670264967226449751716773005160761251744472774452833945902111636870599531915232654541041191730631960175173229020515452973450047553160811502538161402106376212888535882186379476989544406792754),
  (34, 6822053534632255271971675823723529217281773444003086568183482448239551033004202149895699123513273676812981053537912524389827111624019620163308842654776180744072124465856843257615404510963907932609283358111975979468736706818733350045171843863956072711523464784751259830147374518967006206611121609613962765726110283967143640560604307012512680532835808126312838168165424323843096933607666099053739879380546530400872388242973494154905793487119624702863252992772498191593792579361723793167520076411858167470681613945930351780711317712048336143476976916660936933355240206378866650145731565383740019992414028948350017048321469998267560113104060863507390063242789061730584815561610495921613484724959611357596674739082329088743480283746785577884632149162761919646517977993128226819740109841915949185690754415080531458668940967182138577140579333309282768069404878830167452042684931150017984476433802686113998012718759205775204998656634807270813818837872199355869932968794336163562099335348050606573057531497544948594193429661436698681205582642),
  (35, 1514800181948572571642946456190657665721446822388001160707732581292359583935760090844809209226507401788668423974942728754086752382007263569095234499146033710072033821807630124329624305412235961788925805253169096375142934409534666614534147159451010430758465902658863718863590127285636439080505575711550238908854216512911819889213595122369434045214079618893700011088009211241230219150488401991596541266767686880508163726212943323552823199996695149669675074335653085631652023416337806275491258658334524671003829386627395487620326474823317482348014200613132051844863237557505851104533771232113388439174853032830108000098414449439995561916521923932856685301713494708773534327512300682782867313906335850831274201803810275131905553491667779313159856044346915126132153984792748793666966880093887179647501889948230792596783430295557127565740137823317195601889222383963987081704820683785205869990555228449606178902294777595219523367515277646695518066002297183620816213907060993637870372806612202511482742479260773368925637454251),
  (36, 336353207924762756521446023837828115136618851469227938135643974276755371074407347752104579265695972096917371748524995700973084697892544254201339476950713738670161240913664776052618984691314689746269371004975777816177560924492939661144613380087590768731194670567591329104635397823479664473632367988261631414045025203510718652232148070473534623787150658868680903342209869601151536134638878426379627650640397330685273860038152047733196691837218931582791841901857391775979908376106146118560873993379161456613798003994229033261753530063803755792656898436525403849164118172337587587721549377696098926910562759978830772671961142545032218527508347324332562610993928490498481211899307456647324127135541601892068756892984903663340688527735118871405214882608885500599001292383768757600330990757358264455035349951914721277341226964377688966598622618528239971773490520324142941683202943283666979191111647122432603179325464505971364510536863711400412296651328469252014391770323339760890020371298748484028646707596355),
  (37, 74685415168901784953359560603954828430190504981535936970211698600622186152224762931062840241379907781847018631230201880646697262576563104294175838931362696261643054730422227548624808564507658584893213801457620172000765064819121956772422453430249980786727142592438380285985684473350588726340316516095984828132254155892066137446614362253800620319670266534343001388747760589009003468609090357612171116924274706774949271470546567639829373707072966784891353571262689124189647427243072221480769004111894748851889796699790646375316054940561617856813140528226893911419082732953245862993155666669874084026195005301428250180723716111141620551708797576257016258839302223506697303134846336356818500312208065092209358938897610529125777298564835596655394422601410774153238698423519148348179547824256471831773335968390506357641350902440130428236646493901326836473675972836298428232476064525591599632536149950146274628741780662509653541474586681939215834277195992140755913093759474014601844021497617903),
  (38, 16583493504844971859955056698585508729435718625198938198306401512777284451714933138713822119268874302659178950521826605979845336655957924811300354586818737028351299480727262743562859165945486106834566985297243159260545943671549796003427145597726427830208850866336839041673046317808538387890961630870705294925643558201746417206242690688727459089386028737377646252002219545692286955640760493451224199206310617959850968187498568962442897065375397306903380057662456487204363858749693392924787125828985628504878374794463556597525243229045452464254413595539743981243706980118602625363903756384038322361640696227906731714631530393768375617391840043918944589881317276514962129802424890606119109732579101371416656897337872233096065928240947025621719639415183328595220059534048089026470598543200314813724941776819950745447144005203653844240032457058554311220741421999312792223939054871431261820365899452283642897462154869654907908301963230046963058592780480595471927922134579686668),
  (39, 3682275263582934771213274647067005484099480883575820811529312871452468967164030406686964873464122127203686931985945293048382894163623803743925798364359146129390039288589030259433337218340132801509024957750378767349180267808992675783108171509611078460161776796977115761978668374581146976576277100085211667627156323512949573273661607929034979585955669769711770089115804871334594939655720845218538360392445649936149206468585149280772459173837717512223124033622891701019791371537385755992499355477836957115375904906131396280708585333203137613511164506275745937452642073069940873114407801421011864907596046366845152260556263985839507702735692466929053575232603956570439560535287509014651169010564752525756125745398362462365392250896927346426517366206088492277492541592866596581610125255154720403050121808967200386427325795132799691131734986862627405019468304597206028275755502184429506532649971039376456332891091287293029047201924552821659973976450430588828998),
  (40, 817629356172434656115589160077261398712902628784629811701443961254435929822245623933672158547571901925034280499351593331304825681906204140952656825333188674311106657683436537381168607586825791079588732416648582126921034125624640990832007921934161940525560366104241329476345523415597534298923213546921561642347940573619353328874851801102665305278883712388447484390965957406250626080765190886846944093605215924602362873557923105215648892370814542532631268974651709013303650135326530450226696608307738450016851491061094009490107892066975200436253293615108598792311989018955594375828820639289585797372277584720350985348792304411662532832785451989045047146904179670367224504290126714592609976518680914330546051185073199282893851941835734927839354447855606198342565515757542172751855293585932810596808566077318529487304851386169519070447431870318397568774987268482545658674994309974660821241565284007673435833308188064479926296916656591714639797),
  (41, 181550187355311229776599076977110156733914463264987361700034222933456564587530724239415619079540031753680791636901380642138155603904868787791295014345145334203625993725891038380589257451680967468101848947040344518907641396354503009156683077489809705214804339965370480421634822551906842580527837165470247221001291980254050332052092981980586914259599320085643947735981556674139101463884717996089484720157229122429154967084375324531569471161853006958328228299027257706973712979444092699171171402402372094029699452932997662182711376316867523876209849789957979111580395438919463548777919042875333404998553427933019122500582140119606837746623722356463310396738489583066011018816024007962655889731736166978732293850053055236274887613294746882839175169621561128911389436992263126359647376433159324107642629464413604460581738346981185833502865691345683276943956155845829160533773156541594689135658345063395879234046331772994114439719),
  (42, 40312239627854830233183077573435693442044546210632156386282623942973938465112563633686334853563375274446457399620766967042404663014362146715468165879582410733406765074561629713778778853501931968248097997111805051897846020487142032638830814466647605853966864790116225349034856597423755367146361280343000192775538831489430959461268680393205835080112500416358170825768939378363100887851804106125233225763046394854487593985237874253420349136522162150765573103509651086153831084286266250741553008155549755156344194120976698610527331348020098769339852293837481802158248419054016542700012076010828977813117421485191337327568328952947394100902730583339271762156067077528045522059846877115912795215811719933275229314279954187686007389347928955893610643113050621344912284211873946949844815596980468272565887342754145245240732027586734366112260403179593566408596682149456846760919351888174223614562514881284428295399699),
  (43, 8951115321259694247404112978475099292024586166359079879560787623257295245901796972551277553981591911178963823690809084457691808731540899367526116625976156590365832756537471099135244969069362146495835214483651023932232721580620050509198891387951245018673188989361627424380745872921785863942557800842438311072899938689081806009278673803352673312469490746479600283429039542836435566970327224096139952088311765759458635091012761740570503412417196522506548313787394453472046272731501567642444620512603422591132448545009641955644398135543330124013421124524899648428924299544980311193988644482782593964482676290745630622339673948806692085596610125374324719834933461323343577770868606692407838114698833398083216291361272068583472913383990256783676646416014539185907597082968664885500243194497086156149161881192421121132543351350697534277470485248719634572692515990283220785731259043066472567834966737),
  (44, 1987546865072090049661503479285042510495016327156017985994471304556912892241896451033567928134763506316292990067777923871076546772366009198367032217023679037235196899945703512351894058639800326085725569587843208026611360012512865734274111886920321185090048931747557987712872705291949260617880679742537049356925890145911487161844574684785513893005735986671015442111250718137761577096590888190871622366859403170189021233828228280247311912665997525816747679110376916929104740319510687335777165922894487018495664256821187475900951588909659258322144049900920322814160319041989629903844638951237441034812112695837591889711819499503821690787285949737829995470905087126750779261759794683680401305952368587286652532751842613638676629675271344971062409373907772070007478611146296211470980919242677501897407103816377629789357185665811864767382729162315493165974077170851654334377099046722),
  (45, 441324058441661893851918263407221044323157417878302306893334299385182985301728823596530792283928521197511072702268827598837802810145931815405724428149579758685996923290549163302951559409302027728257115054871581413197416874981824797019309282055592346566563595000476621926943080644387812875626026507883994889560901352993936650534756307845238091154043899751195898412051768368175854599654805009317828220654163654262407473556028204748309454821018013761919403579610014806984396232561237175046693172483382923372456223714914106396200077055296487859774783864789946398023253376626786730943567340345308994030298635732992192471343253936897546945131631626412761428177634837388040347416252679003232983510304082389858755188410526236937359975909735662090880744660111929179433441520797697430578883685689160303951942070343366859462647338893280369183187419920980452234738174164948),
  (46, 97993626201828066881564502789666875094120175851236941440813718285812157728607418211191001576819488371515843682128654539328986570813808440026586699480393172067791795741165924797006230023613604124925451715948758885500055672456399935107834920000600253022461122663508575264889997921009157314998867823123015500094907838373252415415157524837656751095976362892952609253376867153928654111166418005698137832984221443636560730768911229146185649155728689504802383935263635915455474221233872549154207794466645990543180626904219812605307898025682564591258109091923039421981104976853610704368414617648402929809760811395818353563081213630741620147883289665055129832945383229077130441564840480098309894780318230561092515522893011669042521291254668423176143140861518102018441400779949883435631924006357497093609717684944262531820598937876632122145043142980430724),
  (47, 21758956014881257388491317559174441809419062077153837387383822498301638456733187374669301020103808548714373997533827237405309807023612094493922495773176744138528899974827169204891365286130419652912479891827105446645678151087295116469335685878271158865329192806316602631310897410279011077827010209409495471076979247948637196599603807763001560595756145628397269167288083243514919842958131243772800031726208362584859998979139696575102962939874600232492145749814055381426413712204768082637359734334880053615616053280280020413277120057546204368646722465184900173762631607308232179882324198183764643437384853334470256007072297670269424712527181402380711955380703656390103082202868160189151988321089580330761021274032528711862375663974343948696165273933741992705765298887354820639332076284308167643472185951483605664732751615942507166383),
  (48, 4831458791877496025560163770448376194428341563046989148861237796792351424034503359710262502974884435790591530644785556000125834351063233286109903591339793515998433174228141025375419064649068411450030671642670534720634303525407919765352529173094792111273520217177842110110979682994390540439901205050013580252120519249901422217526993612033134375905233860670322089969856884627308237313516288572542522429301989169395680962302609409723235043111518357586957167203720595988021364320296686712705199971447696644928768846845049203872983612556748882906831251375936102237036210079676250700616950246633581930375420975830007104134394478181692527246923933802958138948025865615780650122640834099951201145019233372563264130995606970772728942742956857268940058302654605357705840546434519230437569608943828997951730094188284842067290),
  (49, 1072799358660213020234155915222104168164277680230921216487856954937002831174632057029985518541179461800751026738580861288634369894856275101861072334330131397221358309248573275585361420642900638978411452355778049007187902342162089740459868173787687461923819002836652973752112868489439166485748951594483043405795801177538235202387535847897078445108790913054446677576521316653993097225792102215257893140337035809883702178596689024902072797632105381172030002689046210550858900755223025289986332746289091356885211008870453367673343476821515657096870589445185885008594967175353595345895688333092754236083399173421609357016850588635447161572074675885843428285135095889513814385471326974418967979119694103986350692016393066502641458625586249008668825516803299571014984193928354070908016973700897261567911854),
  (50, 238209309757533964687449470967928800721599280400650417513994539393865239919928461499133960126183487188527948212385077570603402130312989812706376582900788493290248853714122487340949950291896022021173791084436083481973162215010793083251846941281096802574867425274366212212091758605574945492465070034140798670004282568311975649116225073639034241328979272066482276362886275310156864601831197454610245938146122546587494872814898391488241888275119200210487259901818401475598653401978432772040534723318246250514340866838062729159239041662080865622241576806564248507544389906922032916097173359216684769263450301812962793037028814050025077689521134746436436121847675238847388608897993876170267083046405158422802936313939129990841204874643443155434803514978103118151842209987436116367937936240),
  (51, 52893092074241571156922802158516280261927726817078600756675385444777807758817447680981956448242941165646672070051530573235946259288883045047183665322092814606951998601722401522489868968673777248099612868404274470852419224064407031709338031985234332043930690970514251360765541517558882946250020527255281207964408518676970546715807401256320166027918201876281847241675663517594510035999715237035955084365389745454999502692712449473744334256380228866552337104805280968497162551310998885444864077693258237077737230209878719930045281769949737469974156410071902307513247068638309832246297060374621421014746752817396052217724127987149297464367881919663896101602812996590996337279833789087069061605758639767351078784640039121727995227547658134471424778421216571458779916822574),
  (52, 11744625732962540222935856501355232089960257916308825622965615749784036526910003687282406033678321885562290149175780584169232774695373933816768103053896846452109058789430311488548362555267803591760873713380297046871685203875177613520651397060642172529085600910797063061250615591921279393686953570798488304365167177021149531560272615116991143655522652195279133122837864379456572908074344569422385607434783842153494030845212347634694922048971604767180825393398653591791467230526579772747981400033883579082702995970430267154251606022297611329770573122613928226738520797273562263471130860078914499528594471186841374469917850330047349054665281436613024294765145289856212255338800224829602709521344130146821634287081831025880035492927939890017393379679475492),
  (53, 2607830780692565272024596406260781466374829939648322272035746023335676763114706147694903583706822556691500987796038013321436708182982841838073760945932050535336137544731578502337937411050412429676145853244669511374145139732776522141927171521469618455258821093743412977423455247971275538414688149847550199145389334834033960805520304846534726919156549340355934986455674183988536041380917319935856242222520059551770812124644561332958576502742933915588011847253397401864660418269254945988746972918906514058571657294857649505113460169659692229366825834918763037287875213764077606852417763517214790659616183223775532494375548355896582313174134363533743344243659718637417929423211479890996324423618860963375096826306788013230919493748346624795),
  (54, 579054755449176171780698648927507533409568145044911174528595133468430856818554099555375550803612821194965552997886389532605378743999767408934458319626089741976994319248961396247858981002115133483976800051913629053884832292745423706249022436323803110423193460085303683673367564475707097890047089504741128371613037586859795559193273075905407115884476197868161965198332895189758464045161909185611918939868985457423989642969033861906338282890557040770290429620121615737412878541892066772921555232266290039849530557867720330252427542601305231596841591623013197765806289758778810451138271022067122015922288691308601313587777340930487789785769081360888977931192865197798908041925926609842858565903137857966486214177946832333998),
  (55, 128575984410118244498134174549565781518190362489432662043460735497935460773897544050500707282725285774655838074287683133654626024803627786538370390500433943742418085418430331104338398718525832646590022716932704035530627734905992476739335236245072884297940883709488887531426579231969497439785001865090269707920024459166394174392540443977376110005135202972729262478694295020200454139920330702916242412140986429359375080037499140989279140869827775526828702534475043256898151931923213302393239866643944235078278038920744699136769289480903267497699798390843146472148361904305982165343931586374818291042455839995797386720291113993809592258791011027049735976291438976888505314018407773216823330362680547315284354),
  (56, 28549603659760545831952532717417905167297158675345680586987601119608617249584344343299659327228293114638069639468739019417809166043213142201200649552028746223012873371175998023048032284876072093102854993023150962899623165774551361626767628960775914928719977851935462998735024229342684600893292875406819032451730386451152988407559702512490106157052007719876736068757875996971508953035979836133794770914377943682270345535357150177751535760402965231405436260282674078105208711363364975916343505946989080988943902643120790257194826407711344892335730829256021877792085891195972084232720088820018256192985239528494634750860296579294456881513909872906068198695728096384599796446329575274306393680),
  (57, 6339348144333071438921254310539382420987063345633219749303739864491045905222382199474086713911167441525451115086461299596805254965778934033752543792376722085567419101207764623589902810335246993806745912477414354812497152919307112129421547544336662754578300649031612761549531022136847402596142967471028978398673307287442715730666143784579557546274879293510645344924357855557122152716136931093808867386731796808239447010075444759315624242987999388143396401099427476895804445776718991638598281574928425473060044338382966196784362513905397631539185730082869964863498171521421855696297427304654664475555733798447616676591983216098229286562020294579193001427938043195117436306560),
  (58, 1407604136671238482323002279071610906178528322526650422370328246857590640009512492070384103769995993622606378170495408395078892212345786834774215800610344654625627076828673133441484165469293129068506320916036549172014417584018442045854426734990997916558189549423080646143453021318913515842291169050887283268188492658401730368218353606385930203108027580842415378630956198606373974427237159130972337142814803458223205001776165478701381330509423172680713190572272303831558336889662135704271912644601051757001335220325815187001300544785533460902728019662952676687209209827666580920713553757112864760561962406398059013734145687930414631665536223027709187385403701),
  (59, 312572909657335672945718395932059228865298376085694118742111159795488008797727741197237368883596756040207290609890810739166352873460998677213807996106629358576845167983977033069172687611769253215468879275684925209445419217456356576577923743714650443636118677440729944770383481626317748888324324534356648261992513442210468930478299492937224825640499496085576320310223179634596369290643787933288982441106656594334258447840633124234959925985232877222014393062522874060096178833862108803463325629450910319068694096230509457293274295048327265374958600302858381548799790139117873503179041423915977510303727613357313800458486272445193299228757949557),
  (60, 69400246193270426262704549671685442197798169562383924598881354047757961662373217651527126139048075057637365901711784404561083895366258637490144465810839221861101316269205498623680017081796441167538314189271831117110190408930775782398740292900028186820547930666629497500992923179607935570310875551378252512317946773718712747255980384571211489504642363148852356213109469523916947934573440664910656298346808002255416609772355790988582291265672302285888625868625753547901951025142696226457201519852907716475616607484037283496169781488678957056591326564180548605804291431567273719400157976007922302472203075175018020628177027616069),
  (61, 15409949336677081335327509567270862128876825051446838353442878180944041526151369006857694917436549423534471768639655993075898750096501055672120978053372441914748852967921811324675728696101830321047780456542859503279804668961527927856765737521561825454633780521648953940819084233183645252801558141844824651922238465042439450618228550212021682026361031199062120586575334566026638964852198744120133890887660422150746965053701795843888615191332063531337408739008534869392175395886361700393824170082748339928118890634387596590222039863753587917596391602097661054087466904341143630429348249967178757469237693927004821),
  (62, 3421696778054634031149577460448049306963323577140720302826818638233949708671733794265593560586162825056751304858600166735944344222941960747242686839444914478911096286627419857955583046430610614646795719681890086947287097268748530358460511888364011974809407684714078609708427330011783290452987280067429790917394048331212910632168179388508276141915786575194612797699075303307955632140739634091948578586521980327858423018249160637818719181347477119108452218874407099292646873519963477819250621939471236539190950054786124738537268948769173707662817444944462277878091819203736988788700926399543479386),
  (63, 759769161446313299947555342118737773318156827924101614227691676219739965232969056663704836455563015325778582130377519085245987109828555238328942797019276546013180139973050207960644691527425164160749625833484572811546258939393378525756490895668245542031016468384240674568604918495505296691231174216983760673420702128789804884751084270848425728691745333453013537899515909981697900369373070851881698215579057022374433119566989811559795907576193500428003313378836114106344093787951435891468424249779735539788809041474363524915955832378899228533015974674567532920644510873062145295209),
  (64, 168702680226913168423276578838951304772820496019519061509545494855996135634321951037286487220129303526495237423342956772933991465896017781924048310299523741304005393652940966412346364828172339943181599464649821541702822715492334611141246216071025716322082815324329655448777748997529733354594286578578368222058559613175312331207784855736773315670816605680411395111080938123387321369172442168338816967230493702723861834906716678861034352243644700597631764522640984969984116407546789354990825161653007391260461268998618181400022173152436964732810753319029716276686078),
  (65, 37459511778596735798720043998004441100635839001511290799156678205439134238015695274902372966814638463595374516418734768623716759531810055333765719356009442465097010736809014214336101072103325371250209058572032576211925959147429083334903359943328957696791863323311508630943302151044249950975405001425688268562231546698586823673130276582813175903874002506196685262411363889072202619453836311586275411010802668032518866708455626132912021393625805210588202814414822622270218505918158642552089292204353300020911150951949217157805346184246352430687491340),
  (66, 8317892959254961960358834339746977827126745766589638876135874973059207859851370583617282532495969020782752631677846570318833158563615145851511039289557994989442437266714938474042425705778465801138904724449194548404187283959817468024389180520997095548437420195810273324116459064284020697454849398046249705453268511139675255428953107765001712422081690127563976064639594609145458177587491783675123522975741838336190431585662398843044412694079139119781967131769915204105888462776284972669241928592087883534970625776528522346211963091633),
  (67, 1846896523175060934978128344907179838689897662927406630822024765535619247648600257407602018143670920281975083757071207326443690785711957895350796582412385444190704167681694197062178376511650973510212588821722624171229099040040416643628523330627753710764621394457919513649419471546140455729323449173670000205789848555188557119507074027631707240960234077544331396098591975732513854721349519185739989019967699325845877055630597510464867924065611872317023967330774167638983146738167316474999184682490762228328702686439134),
  (68, 410071414988144051101825179156566526864747527386146312228379856385664626426505168077006531686776490718157064313288908019376346144444805534022297671325813511060394292837499469677311932252576170470152504411189572622234553724267907499551025777216955408291673419606738528371344523869427777756652889374743493840798810337922996283471765126577366096267044278296608773131075541128610889105026346151760356975010568301081247332607898042279671234089916266517905378310391987487690837466241791450542193822816567522),
  (69, 91059028945088623601480535069595109788847100535778688106207599741544612323489540409099994935954256010930700931639697689537338412825155790444577527457565164143429901856083535880156705798779626844460690953099000523397140414454854842224456880297980544863525426201583538858802132063640589412806626546269159883896714056497755376478086057053071752876671075171497197671050691334865963577019519154684648058294449871111078230429478985862358348367375740048603885474499497837658745595608560968980),
  (70, 20219166106969193830378539617049357036023942562491182993860364744077801679803479149850310257113380981253892396105865979001292909803009624187636634556298011219247731912409835002775320170556701377164072695127438029781677747531522394363944116190844182295072410091671354881348150665898573349561396388393993949479826108639164860198904423094335922061536523912816228233895200960538711660743655079190642605489197008456449084877088444540994039360652549079936738820624585019701633),
  (71, 4489555686986990626018124379407903991407745308631730778811359665330983588259567025739754627735574880050910862851402336914834365261149654977924479120941022281022534636683467463168991455651288639113723228421952788312390428166570434737208470509961246316621960917887804218727931745284149912945523264171405937311512934077786192240432258604679358940680128420865732772918247308486630664717974328619566270756994840649268844903468226773991689662900352282599235457),
  (72, 996881854872357466086080174920377532700123043429956349090105101821958949256196326409068863246640597685957894371381146509663128297952401637964766097254409472141999658793912480663054163089285121951683255986894120144515088649292460304441503332087577677079014468246552695341516418506665785174391743617157574175812293026117663067748359561051462548437506798922583239127549982616258895418140783587320829724090796202484621964680768781516494867208),
  (73, 221352143050346599185181206404574063856960772192610242794418029980301033454321490503295546734335287409830545218006333713007660914388759574167505180353662762874378559427805769790175105496783959151191420915039395933312669240625240884137492762738312587039888346389531134055294047623405380432268964501073093783664759398613707035013432944729114838120130571838947310418265014424935335876669016125940007283243772523132253462806444),
  (74, 49150070152063076793989833451188860736470075336479979796646769010305490594954055769979718883798933113080658937256140764597969848863362730289557904072436837295307943504526922085803380792789161263979321171542689432234257519588373017319027709348127240161659350021917163087006372983082655424319735912523075040993330440530287994980206131926759237815920908445066439556082270748846371843826328271368540102794770652),
  (75, 10913525614162926965803863097697345804714496356843522436828661424756168742068652040489795729096685312708467085104746118446239327883675875038973722017347991752374573726284247112206299972148600238441501722238342140628206882178973002025958298818992982910647632263215940919952787872149839566959745834376190996872801972677369067784064956029412363397632112232750789509656632909756512051817877456006),
  (76, 2423285551989544507576634899090231631751877249684040174239350100569833829950636196023664157957305973975091192179652661559573678522045421083550028680998692523962788605257258190413897334389429229275821114675488268483744517843385299005976643757089845183948105345378658176796684253802670342513452565178174544741005353923013762227639530445507346471032429096807710426621416905944784),
  (77, 538236848250680055169790158843522118222139155149242484427585008318035137642512228021159798494354780530505202379763708585763389597472947878811388450905504122475336565101785839409580291655860362903708833534248194585857552858932900211482497100962270887783245600599461121713499516379356597828715163538392682842953061901354593009312540952844005730262324550666636738),
  (78, 119477202134466959075620360777321307774595696306789556791708503034502212015908898802577634032258765977934751029481033712001465586625556389718097530554761655227750435445060836520719072691557890234616069731941948919955736188423872766234134819184528249526568506974322593847972436472389702961239478982242415365099144777265089591123873712745193096294),
  (79, 26512059136982880535533324937858880742281781075847507126712938763045503752121632526487689702618170773934023507878677435979772608021254913907645004314574269283380346810197987048528098381326131815937354705261112591951780527420495153497853815766043530113547646954923573398413398080506496276821944957086253074991208669316664289025353),
  (80, 5890680780084468676550886906740017233360671949774190981990834771512761986810126659770510281022942888245032794329434974735987439467402921855076707599276642970979420638597648300793695146126002674168069906251376579634593098456598727952716068809063947227540417127801543422285178258079708633050567927921971752901557818),
  (81, 1307993905256674266199233978004875019726084307623589131740402197091862388697995070125934356638256019801868183032128005250098794937459211046483065227480492681366982748345095075527234976634762291621857192281969352584314074065176435434062815716325305663930829580593331882363861890700883317981431028344),
  (82, 290433022528885556652745279259476691259375255343631329299968885050292407805554453382120875022096110144400856977463148964139702841347368415147469780340820366567200525630475928547184956330448729919501044916818196487838673136050446748145025925951854524332020152313456294497311880383309),
  (83, 64489078507771650836494890060194712307360359682812230983153993363271410754863945920000274741581119466944212325787046841683272497474808444809751120873988164340255715704197363605898103193795886084297659262881723288727420787235647414167652336987301831086114295927384376),
  (84, 14319476164366987423310257232081855096420149681395269800173973482985173456124980412728809861972626993488704553859906475382067659197012629060647074803202820506727675099621740746512838891380270829784562019267615307369974945088546464723691222549822079767),
  (85, 3179557053031852605200312068050137561534601022741834201146179959596168163841641827931031107144956322587897287949996550466160165784361850879094933212643841572579938962944974715781344127423259951659725406176504501413375019586807240379121),
  (86, 705968904828449240523809465784925198569618707317724808965828321407500122724441300941665086281299459797679324489176233670785995918295515306346263110147540807369922226830238669267462268517179524771459653683138819334410707),
  (87, 156764265941034992797062735645156952704909420808394240543068117757344062440790874966959966072734224117995953447794910646249394645871705923897638955802671966462717321937323339539367326870057461258535868868),
  (88, 34811808549026598534657575140687475269335027160356895950851107996809526558653309587976092066026030245169784779928052503548694836394015755519835921707301324473564854927774574876588522929498),
  (89, 7729075046034518405670079118732060713221134591040145431661801833710206549759586980220567669200525203702905934423168247170188512888952170418009823644213205765935128346719862),
  (90, 1716199415032652809817959345573694736344727930060281470412621079772261175577561380769029633082756622171111438781891950362457104232591483660331341815335132819),
  (91, 381073017613867170860036911516591206255094459958855927629360927384897070289061000437274992034423206320469831895119528104292216288161357136466),
  (92, 84615164005151839454147302519470899715448235163457457059783840539865364085540365243197196559841765461876985812346790767574049),
  (93, 18788389693262269940995082731338636412474402816823162022259659547776800747570626753597684338802071341738603210),
  (94, 4171849679533028431476740926091669387653906643518729444627762753149952979214069989221718866881),
  (95, 926618822629681775921639464540130773175050909046770930961059019565027169328964),
  (96, 205688069665150800817689245246788723216399872757528109246941441),
  (97, 45603169767833787018655077259996446125945082015),
  (98, 10141204801825837463811291499926),
  (99, 2255579686939342)], [
  (0, 113487350510321507037372465289423992366427388582607020871202109751705279935757173047817975630197095128444437756704508864368399445615520693118846650648899694860156531947014523799624048307542081887000773634432345497603844677272732695448406570036994281082104006403010757758934159425218471211174424018089916575715158831997276921388256859477877254566489071383238180848764204542941386299327215722012647594828495590443899668487426798269189339719379280666230936338765081327931432172480345075038909539583323216844310184682762280053126544401621516271634191168161892552112898480467806310760682546744285092323391049156555882464153425717452170454840384428838922097308063245464796219479916111859801087848192278741470983526423482699873058382770252747119439889793830590293219189801543216394308638807837141330739693459058956639969870100430774010269980548381195890432486254638255170867898124512592876449902106185921593207097771216278288442251458233133010781820050276782929485597703709984692247720929108446141716776112384241889028711347369667917389604361807660787523619338470797486558651331494129237790847745112213289350205534679742075617428816375970355952688559961536107821613826007150493053061899130416771742087186003405562341902144532236235121180592895219157914500203676265889550617817068952624264788515844705844477933842723332804207794674613557591062355690779247873349872352685335323015217829283400480301931579334091819715644708331802670822847619550891483882345050737390367231049825279215422384496906377166386738611301700829460252683555794926149649066247789167682420792017513611264),
  (0, 113487350509790105170959446261072621288040724864045702513011179116534130785345552396681078752973894944733702549573388106211891559290362877149691556551204860022479054838214818950158142051568096336459324766643710410272332947893827297810664081284708124270393412272066851582102733798844913823190410768776432163258993424800315982047010479337930272207381646850789254137500447166701044867039375541423917741218374660289778019030496879815200786461470583635239815621921948982768494476831440847011997744721340188294578129445359014161522936808509228464578345789585998836471802592331857590113889577159897064922127646731403725717016105466453885580196497223969233901778703874247386485422873170334617924090691973752017498248732836136252962486140920101218210539366912813433684885030802366329576207741858596385298659958935605089728598982395405201187474157565133888623710452322083614128932636838274475409709792368470290189560356352444222255279979623303005817923785409947364077627340303076744191347611566947023678234293979451214417846880472212282335450975654078521649667783568564063218710161783966843601342299129391760322914374047977135696339942407136171346322956053198357600266809770321363020698557410071142062033169530429807044878796846591688687393794218861896245508504983919037945181211525799141530762656699331030622768519915968280642993906861941760449910024075426536418130655691285125429020439937402694252445264122271581119890890616554273972494671458103067402335123559811764722759630325483767615104690836584182520718387001762899639413410216627579263056486448288683823365330086920192),
  (0, 113487350512048563103214777904519945482761981550416324730768988271559178640969973055355136347046771328904487143663190686248969729606630315478176463651901026235179642509367732693089568298905554502509002495693826989964594647238212957297679080531716860290471539172842070510534010217777837822487354280136057773594086601794774082521522752420945867513814880485719447284727920274655444608665795191648851037233768147232050364058010643938076776751861013579628514808365379310762147483992849601499769741325090297087467737195446386645994583911263617846788150897499743053938374476086859178044217105989027796020699064699952302184003565529884692487204582428218126525805294601669225476718479634825450763210113985256029707362180368413864360103325157288543521872021501112085971673195741997389152854397295870379359867111369029105876571138926731149899475869016709435905453427182883730582436556457734857407983707479121776182346712480490587799063198650228293173026351881811851039409592658984292297114784680857989871099996296110939375976097055234250499594276578380843704101061078009037873324623760629580845871545298389642519345922543580300505406824113884108390742357282571865844717425692584910074136491932913163758073312324338991574215503386322023164679754555212214962106986398668754375336622215980436808368650174041032580342261230848066746367925673539476988248563665386474462248204771235906235210568688233276381087989356511768181627462629597404686162030263461564597783927215372105802363716702223753296941984755868118735747693380912560509757682072856383294907840062037824145901128423223622)]⟩

theorem ccccLow4_ok : ccccPlate.lowOk (47190737869 / 200000000) 117640333800000000 ⟨1505794692263563800, 286908797621527200, 296419895442876800, 2584485792000000, 1148660352000000, 1174730966250508800, 0, -18505113850591535574, -27757670775887303361⟩ ccccLow4 3 = true := by decide +kernel

def ccccVec4 : List ℕ := [
  10591361539162998300542289974014001610831434209279394876241292463652835080282665023362949139788344150396099780515725317625687060487280800355888717484130977875342447812479691537415514619565792258806076985438746349862190414097420997904391905699870741456889436699106372737141256730534254432081449077122917132876672720906302091958092123051213223940317706130963509326479687282193209148054008660465371936176997139533584559766816133376753257653091444347439725202462176482746063511407280336037881731241302622339691056443636083960817371279228115950891575243046804258437195632452419737341533484460710510937507285698535296724010209378956843217292369842856619920973749607130523662095876647564420763808268319209098696020695881513066969981425521717490456553694624953057474324771308979451777366319940415501569923072656076407416246977063023701728259799686302468653451287758619137332910955208421459455660009689716553245431068619574469988422794410491414406664389741984984833922018323079649094367809847562830355634479669667672433292949619285815214080765620609106229362112780208426998286219155084841781637662879658303702545758390556937574603632975298026598370999847772285498099289426951463944699958844945336452165263444000743519885858133225859743158714528555736404199268516629619671040,
  10606788504675420937098478616113135305082077632408838474558090205479283638585547974087906471922213967705422929555352375679041463047744594361810565518353184893407727609656535566374092168274748177306783357985425478662721552379461892937896039285951118263629275869688571605745567583248886411143055498735764428579964337243646838077892318042841721017116461704277363698821191060047876902574899807311892531967221104250834697276693010203180512917757865962891740172404671520347419813504429513896302039517349294405107193760895075357695767718246378341382277913135668029475968912970338251105418136390536390597488294046474776851780998120649283253550515189750463328797051928533376208553147393703615433612030715114335839776750258330018880578647911025758669022163454319509496255799766401237443182318625886307401528631017689442984950111916893740236832015931184014748371457787319159157945871448522002379247665185230894418312244312523844171991380332870307505922652111073578887886108903638129075475457328274350623779490410863351183734960914309705634503078802836220741334362855073863608834948293803927672563828520983305572922512981108250256149778461523504582616569143010464999440719928420292587064889795345943663739116403871355493877053385440753013052006144547623290230043624612504872925,
  10752475038883554393761633506922953922530309679639080273850469115193105346674564323811487556632927244381801513099178739769768627410137206411550873627232356193107754568765162103147415465656506958481215393553553781275037735514024271750968144036065128003726769372598014942343872588112259018478066571809691930481128159530074926955692507048579424599021742207656370824285423501870976838731199405851245903659476196513057237801841688886731717946352947183305138241454213156640961168850454384826435285564436152483521816426463816777903358625316425254785441555292516711751790022096088122593084518414181295494213901180652478208245982846508106506742181258346047481769580897628623297611619087692640633832532818588880169018214378754499675844987155599364374608359643783258844500498903482779179831694217788285952535467972200315860681998609886524513444419988897683614339277406613671490837861546041698475705106114117788253969432284957137952083387254530598807626470134712488261350774937809070101208286445444045821977262956871625970562490309669542823141637760822487609919249262501116152162897685494521833091062466968204332756473973170802133112061569073718089862637181405726733374815631748669198700278674592436682773237404817763035459141430269582794421367704017163055179443551585436438715,
  10591361539163000549562704078253124484615360598225336504806275252928002005124103855678311851500183925681381807996608263503466834519812110271080671339581401790686334069528196188106752530599297745224677104637447876911946710742104316467678726046780597434300838740059354184877277975889196179831386225057937800508659513976427813299011404877739912661055891150245338092785326889189470153378303978243517043177754180367587845225014559287301923135126137402020593870422417968255831462503415027886392283737821392611255118651112209290298018362920006727637457902389622804560871533913090358169972090915886711139689264633327277753152374136310448793608453611501498172419240073823717105112670791150746958818569473984561887882825589947313965319511144917951734615902588421608324099785612522691854263987820433048326980126934961359019797570018139100956224827365759645394323312883254001108252185053050058689488713800433436122452406092385990293628058467241173545037470485247903159620264287944259017505921001352831583862932442843959149288977747826925794616857717974885910240729205127698384511542563714511662267365538157420466555451840994942266618964655320992642815403937312322364407044084846297873497485456552609482941848162825234474832376589770737206629133815546722917505377164896919093248]

theorem ccccHigh4_ok : ccccPlate.highOk (47190737871 / 200000000) 117640333800000000 ⟨1505794692263563800, 286908797621527200, 296419895442876800, 2584485792000000, 1148660352000000, 1174730966250508800, 0, -18505113851375804466, -27757670777063706699⟩ 388 42 160833151102649670735866370461932566330183068928000000000000000000000000000000000000000000000000000000000000 ccccVec4 = true := by
  decide +kernel

def ccccLow5 : Cert := ⟨352, 272, 53, 2 ^ 220, 425825455245914751918943862629765827216901621091119455832991862023618400000000000000, 13625374822949529848210664223742350849166936636796922612170145107514910000, [
  (0, 143862309415587362029018925616677219677777000625300036343477645003162292050520580050547558695167710636881662881274988180834959234222251679361472371272635284699154674664714866297001957720078221165606143573371133943308885153552543242105236010771705649323413660516368796614425991616486743569168641947334185065601069198107891009958874993404939727925958850818075797448816148619815345929414587892077702560510395785124180088889945934185877393174974866647433417976460541015859300749956138940753629425259075589450139223792787977309312364539048741251910665443649601425759601401961295739221963722322027387329481840741965617963478525768986252743641091026374665844038480056661429702015414406319323389823224961610063995237301852017401341610966677165712490339993519394462275387250911025866886471278282842333321166124168498590696243543785170976232338009959526890951347395324623294321068766713070227001765470547981459840033905343326684820734503334806465691834572315220701536179587107566487457945355901464277481255854240268847927743114405689573794692409881085882005711850810960651069307430137605794972358394574028670743329015107399250771718058042323031868230227891546318955282377427076362401878516593563879591324619098705477377227185403471227443706110046544573444333295763716567434634905928676745386056087025297251783473020094192127617215027664505249469418741274775673895989538276608952022070295777321544316051824360246230226631156397210600132254700476771971508369982719956132933382076578951226048836855053946934288935925635917513658713605809438068295023805408067287135143682096593429782428891842843724254164689937),
  (1, 15971924670923398481705717542449696725433505798687970507287807461212632382457809381609437203106097499633686059319796139699762352269032560230314022129936745057891951995391257934725575079587259475785937927722182501511855067218285833748766591730282116989778189187074233404315251759350301770176348659005597138391532317345612414466918559451600914700311640162769937132626009181290081200908485125028750891094697821807305705376922240523479942994212255096180722150251993305050146941474669919340730984021765005637175782940500792023111762797444097460595644197617353500771342364927352964508625699214784872001787931665417988136528922744183665774778051450195147396210423751783277321830992336495532196599974271485476884505557063714089983424383757083658492816594968493954980419212019235348066500531957445658411825113408150623183625644013035261225431454756521329696369095919510787770556185576797812168035938831292610618753570083179046109731840912011373254544094674790087336550323862628255845027120524705918433637552132707911839756319999701736154883194904266314851091670001405223049687469078692123960433414751117474213662800353498213869654787934890996955289236327925267856780794960619874574865794308689763254358518083279520092345086422154077949915136225436275539823339818265581522216935322734947550316348926495005756981165791839939788964657332264467217243124218153583826443691511650099137001299143311436005733401202057375666676090315472972775318488461936846309995154072966352603291305769157849157001291334915198365529153256977062744183063019909021442173856491236044288170890543455516962076622369087),
  (2, 1773239887691051560960725303722649429315016164937639766464908865194317808648501146368429101529114098903924095953603244418516521543776214532906421417671887750056859243062113277766876216792318795441266193054838913731517389516515561462120673460749231730549553362806104774973619213327852735623909673946812237495871363462674469220837692331784264143466617675247026343427693768846925567277071562456931136282631944861999903537548066083786546302901808526499728548281458895474940841502718373336953647048080918623728988045381765127766820246549057255251503777069838293592005276324127385057771026886214047248174053539626924913501632939064198758003710199888843617682603381589830421289200893483999391144062006573525156664282979289562766027955116613272013443441890244826639145833984312274318915229071925922045455522697966233247246673688783496382327119672935585279694749773890438115153737516625602029703656214019115714055376144464159140467585596816918690804792562344321688458380372028667314212662123835958263646571430245936077774447274287337910573702379988669816489439210443347751032820762870881841340851461488763338626111287446340090593117268788503439186021002431898548991199838195636410104986061046620496407987379268361852770877108905938402513533945733557974237922659820227414679609262376276737720376573309989434104696052975727329421807200520464577036917420487182150482821817710482801057483560966529427131169063314956359805240798138463308019940307105437976810428973295621501812419634415544143166119739461547025022675502687974404597142432340059099584997796391375951349636095525652),
  (3, 196869171156663175302732229867323115830624081485877784896982824169939861147603495840784438199709677926610907978601017893684609360848109026442144131397104503509962220134181585420567515034435535129636096054401851676023628561404138197787192504614266583004321838894170585615958303951921229480268095662938102094218327525215642976163915648590291527482964465253741659851118624296118130106919114841720462097444100190824798954397867114212705344399174267087308741259038459013126984177524694226919258989637566634414993521687053863910205626838006594458672843478395995933247316088854651992178325779920269589086721689637752807970808709584176781864666439822901150709553120369987127753400516500160270000488462354311586280768727241465391836547751309279854169394568448637314750324536953987470639143255572239037979665660881026996383552645956060469718011725739260644670885139401152042713037297361596545846473585644814000649613346398877972171845802089598753261173045478163114838834607623457595382880639957112584744504952361620099193222235580711234729000647574638492465737333799843947525726142153533401198413717214202908370937205331285065356142846031457710124444100128487315193224679072519536956701225138680415255059757771360905050795551411543983227412600318274645453797857519221629846497029689103149066363851497246441696622713021830393401095591357489433162511075313594854312103638008123151085522776146953226254084399769178058714333432789289844218867578995618550985945410459941475822240622385077692512724817277005352500977798607327574930253591394097021926377551268915956),
  (4, 21856868574146911432262512541528490801886484821627517639042530010672334522791693261023691103764872846728867747038170094772076920161609882206651317821669827627683482427138953773232668141887777556273845285107026315800932274003766356227642542977723634386649350402058513290589542191074962023112716127525474554199299080952699345844868347415879853626176715524584716418035503532273389187692645212114039512592715968071051584226799930173865891923618393223666411404618066160214030322125609038717262489457600237662041110596891949777057126428143551420147980664994341124520509491162106171367337313029373107472991232398381757955222475204951728302960622481869852034372678706895676448712990146054208204185985259956458707433559224582522719898700244514715102550376282711679076497607979577715158862038707325674728083432274114101546981393077652283211122286872406138411660590726211930645498821024397837773906684968070255252317042139290104878228102609637996054465877958262617131574564672465060052782188909333951137496074135104760081197004132704821339432679036651618970849028197273398550370250283439703203972685674900518884822398940660584188135764601320225330319179834297573983801792153423565565339510351378810655819098520751722623040748104891091211798669499156660578909815461350674617604899321350558947863830596783737453871593904743491152828387882944538997056320614411369378379090589866530705057143570889276939706079444080349101029945130701190750146429981615149650961706676140127731040180646443024692160448383743859615133445661697410482519490881701976232),
  (5, 2426599883886806565573957401189003405646513250645286649094287615821294269739750648305670866168210281711456875072150371748064664434187100324015075380715450846874848996842740660915052081957458180622133530460046242138201337649132303347943752106831571349989611806066985085402157583288995867099065894847782782770006563851620335866307120596878182828095762930092075398055740639051812336437243605999676812170184295002697298192065708224429439183481274415794660870666277156964218098089990084493661972119023392068060550792735639046213207277737094213118580655891280243355034067095949710724273997410174544648629286969954625588562848281330843682209152284959606979840270246047174276591414250564889472876737967124393288054865778949858530619162393611562970171488186928901195655393614600243306919079365169237568183638526064512452926046448813648732351862104593266518675446912565896597499011098422362810925587454829578724346250994853770379318822273163827989318826359233499751964097155708463493335463943091165168917584577947854255382766851659245716665302358894609797126272833652329938948952812436847168668335685298197240383022161782251211962286889179144698635239554101392823913058721348107724047131273398520491107077875399853304320201328672310669191406148625107802927838891540059318785749349541837281449223978943418610843402004621429887923778802181576245582419199082382447042827943693646581828428590981806383128795382874820746576465097338234796384942089347928771762056639442271326658298089013919753755228014947865315282252803474208487855),
  (6, 269406706586306986812689158190303402679490011203328287791655896626488151351736827364729728226900290223476137631246950852125629908648441013940172292430864669032902840099168817268869477360018036545467230396100625626905164944109391440232507045370196941776678562674045553704319292459134440508518197341653464747219763760668277001899135414760324165304482225313329249746949064737059766266513133209192563281201601773224148422213760461501819949038553657325692573624221327374131106978680272642122614648161122057574061122547271461826531341048977348906947275706890689208313616205449857517040665469845821489455157795288460190453601144562789587135018494980648170684369914421975190811512091775203802822955630283832544946235283878659334829445260444583787125442601186158735339464979113759056315400927291342633511609117908419273536984083282373400938906796008684838077741340139600261115690745010905396938185575898293808446998132689962777521019144358004586140625580577025034777854841865865813881776498914075633327282546273227035903311866034705750177346878559467835922120264568707626762887631450376914400855335795978582920511085278014092440945910236620343345634500965786200269970524851492624602103748679036264168933596394319502058777909043631354465185809228327252062544976402953037825938338737324312280116721424415841452615618983949763262920096904387371557516826006709942943770004136061227154704891139153565240381983967692698342582573780811188890942967922203341620766758605146891940051423386581611256170739798668205350789),
  (7, 29910152828314818222317555506016272918479363932826935758627451083819999266079881193249616196802731095928864370387743814512749465733548374576257676620170898379122977716421218661989932112145682078949523375669909478321777654605038158017202757538177243480171835460100083920877573179824130200106625396383666143258270342387467459886228705563642836164410078555390989448992258476955930901216586686240545353575957793878674783739822835689406096849122576994463747259651237122134150679529118246027056465405195383504754486353098399823195018162043488689759533032179804050190988484595452679015170344522639220306034720336550650124759845497819534564964252878735652997036921520790595225309435169065174278630625358110021154594198851440700482669508817065940901809337288013795633925475973218969822490940825968887409501748962773635145491728778479512797190492950114504690472503872887109348277770709207052956770666636159681775707938153526400148738130606284260244156980233312563990591241991258039868763536863063446188827569152137579096018118492839795620700178207191902057745733876830063037120368674753903462271035852503466302253047053570700916225810729367797020714820831520641546307163980019859442087760080266389478059881693302042307297899236482437047781906363225019013145406509281920918477608925591152112369904583492483589265392719987517653472108637109039250466754550575992352129413363299201918257992241970971474131704425156510783016477105181462404730970666252938776244670460523743243314415991089138108671395),
  (8, 3320694032957544060948561179485286649851399357861129364671309587568206984400723957833422528966440643685898023357300166236867056372260990125028408840383785570489976748938579121640427734587357990235837998052178890748727750538588930621330595305874193820638140822228396537714390559436259948639669111248276903394185778270194437922561273423928253138580554729248259164175388429435624164667648278515831766255007494673206612102076908926221538608986730033939492997092113300607456863454463766838926465756054171482760938523882226367633948309426235206589740734356312312143575942000240161350491027813924257585597342612259349376391237645795776192082399509311004180487599171488264513567091652032132609273385492137781163649219067095933566943057073561544592188485422353215641572703691160507326945386536496550675579325025103811762460638260405594965978818765240521508181861647039677885599114852353797059343823726243286706743921910753388736889395814978355307494276374669172576608399920937279887678553588094640112887068843629921415565484894219276630484882466134893740426126294188097501716596165269051552968444116805968237827503454522465460091968148484042469240190250264059963068646989425502632770473016769663343397683173194355076955029901956691926280510424843996702624816598609543815084025461111247976038359290815178820571701960084136482588636374122068155864037236687291903558502400263543343736590318953174178490017128408222054632168383993350707288294419668422760604455630647482258913969774),
  (9, 368671097428800531320226697467783237264646589374133119803279544761109022393087622601813387565950802225656209235469045591035417713397892419258552803302091895846053497598335832107241366429018478014744231171641249938501740693421976207074113059163008676517972762936019337998587101949714881744206074234323002501725633452033979528143410873782183081454989052399116720289082706750047850522743759918042588603385084935414237292662877304184975776970461569478320085887832697605840203870074096280370523324204392155481653670374759233208304556834409041637271090908325755460116413547558366024160316041449290882301740793640489861712468021960870631996106728044587818448444956868236225438862245236148946485281583756446217253755951903900298059277464435503282541760113063810943929150516765515429402045721964524451028039511323740059800022154279300880507718185529443231978526842681470076598154910707341040559726267523172316127648400836412520181745010169304805421101821800454652444808610459233940950650889338396835590766059242412222530820350420668370015671110790255995422166009973746134859135196611037114425212595148056665004166380390130424939391889158743636427343112251552879286368605906754535235845901438711521884016471086965951941134098292663562179536639709031878528291657204012174243048147735901955652775963613092738099865638947490593049894190737412315380660524824494242877021346104451055682719667760171146173994361384894511146445726470461431502801584043278275918145470124),
  (10, 40930714087927869839792095831132994936688573095610498547194089486448033773727066600796101650539254580054623803729876422742352573915021362358208299293405374557710786856427642505934115565281098465041757874880292265604374242103678635106679246023056828739701361347737378199527284666733822563120003525666095891566800340076467945608281670175003250728024757911779135822197113017373637375704615339461010213438275469314405773486085023201489456291030944599773427195480904869248456669228514346885910418982705867462498792686936695296991144358090235498990839023030692562524206634137718469773436246236659295384480582060183120244367666819494042045109995732451093779156921385601449105645207721333779450347094018243674015070556417707849011821014203927550302392621774895344672867226989140317791682820018428159133779710092953281994793794916930938218905848739511115361949251761737285331166680054614250507225809900255352139890550643070216719294668778736823765645100787718488666203640199527195640083603238075567481858526706617642431628965760941415367001420141325261446189605107233421185203096680511823538189941549909670850804408553719890690243925679266951459289152424694478207192598207638761009098990484532777762962642608275377855834578583001057269541445073736570274939096547172931682378577482747776050731447307619917564465980069745297747601636096672343141468418563832855552643926133915631315553669686716388744534104852627597974578276084461503592144958442410),
  (11, 4544222114977388690753760362107740633024563640901122882200217712057395617734629224163955270759139761648373856888854672215711350628194893322828445001846117046821833740549903680549268883176651496338922089085807805869638893182792258030148924282082256167350882029730517806868311732329170066324821164481858064652331623018038105406333152049597961276536808315067298727194507477408720878556731708838131055692971671949977911108429144057457888068517548650430095317301532009942734236999112844030531216704099992784984323454362681304022873061222726178606559738445795819215031733971546327100496866018665612576352228616024415778068200289508288079866430254284745363242430792550527676234930124297528552049523934642031957159542521029866045630282191804286190070206194830643817244557881478306739426333840082773884437593379786352444138270111684040548960175176102742801412682276666313723330656443428593162889776875258484871605726714516897926895019502351970332156986750424476392156291395948098147430428475597808653225100992612608910538646245149841092161357262567402703018716297209691703785864000491434811902271019241929856932681148700166611291470760698736269845304448233277804766041648373960759460256452670120702523410289087556729698684908468725455570346324640985613669522319424544675137272009843472847526358873291546556283702793692585710132879820946937748638339715293686510155698192477120269950818280612705679711873829491964382612192045929806),
  (12, 504510002605393749904762892115889382155489781500314822203912023844200714432836978033940824598656728428634790993404208096796410836847367503079791374947923449478715765003389390997739485234717995058650567625137670116094040263979377418966011339521558069570557476211373923075027516742060837155290483035616243080791481727994726851992310584432699850047752681011717157526595616291140019564019843380396595263901912544022496959507291129910046247230429845498244079727155685207244392344732657741753182184270354534647141997314340458677386544373155933700634891493950233349544415274590711643735125901882578368619707250540429780807104709594456509651611408623692167165594245493315413109848446400462173587475244581220640579682586308866087329334635600978490431262619821376346381479477579987910608855011993331697209169035693176031918339145558267356079603868812483225565041359087535554845638722240249426782460411299682925651436213150188670220113015793309999381185237919981001856598466449155808254540272311191313905766720865678984347145012353839987484436252402182463790821266722205163088835232025323649377590904084974794143507919675392907654602065749035928290437344164704707603214691468858631523194789681299355312845857859440550894765076595685836695815361211575575083224777107373471201032139430056931876172353920090762149546941573786016187880738123912058790934987282672820224719791751161795998876454742405853350781472126402695),
  (13, 56011861900118643319939659355041207932357207955168961795125501258402907144606714103733545302592514893759633439355499969664985561386516934008068801095149958072467189442050713137335548552603630711987069616523710669601083020087098468349357901350296255701110668489898065937916185769659999987276900097308015203946341022661951227861093160280265505175963212858555719018192699546802945223893625076324472088565133200000581872900691297200876377205723684045228917378239425529301826273224921942069668024152161498766052263502204249036781191194292555459501483452411850772988826610509332227034656836139168145158306265250760164730805626241611692845201507393355765685318010315820389769899291854528177159450163285590280744333325074991902804207350169312364343746932068217194065769716948300419146229859028710591898084958800900986500503973676776690889131814330353421404993074272739808462932727149696385873511546779066285589778862372507785429637721436189526522087702435218516029340500669957177726314408195540037155523136852273087693407956248831678841385202356528884630273987001890782723102212339998142306919322848242518669633970898525000336271935667181628365746845340991788711319027879861459162420496284259510962111319622300530652221525284110468330661828335992756236019971888701546246724196749158481630468158466939103831051645126192828814120728096724939539254018889656303398082013410662738697984933610241042366),
  (14, 6218565896067905280551710517493976105831582739314930114047987895232172493369113652347802064823936427363315376226307610584056914760763701944555210793660020470908875948227395142170709754445026294031203836211802887276334321823570025655868719592871042163985039240777001771355095504808837618988546584658766334463365171114489341067851796561282039572499965163357731532556217853276487184300265189739571616477871390753269607024363744018360220017025726505540125440410256436245969287372122683369620347058598232469160869443195986607687412511086185369355635584092584090890417011830142115685175459104891262160242492337286250102815435680741968330605205775230765525391668661851929073891357882880440796234983143965495329857524629982849893871359694642930219403236047100229494019706371912658792381123950545631728790887642283614330586097218752509507110955964610743002882722316409998858081143127480976583431293935093370997670442380382682564105448946497422497237120738675721698057858134675101599325958452238818285466484340416133234478151817029445645365795976613879787022823810894731977847262050078464120286845165895166414234051988565968410929323122336218126893531253429453122650998794941534305396775509950025198797430169133445517681721439922756332856079931575503781794718970559525376134065067969620450063688299506177499524975928536144425779984150416348408477687745484737381439027109168252652222),
  (15, 690399504170089774235178327329360906814703472419731731455519889853519245603387238476773072331298992263949445949093181404146193093882343506003378434921128078137223359773085017829043193055654525824937237849230411298848073947667154781259243427109038065654981692317447568154289258394645308796930008212044433998757444358474519721669062267093208898516096659919650816174971320164855644379810369167180636342382125562012046117806444114521786663136503724097369336245770579658745579162037222103541389022665699985101339879589829005900213090108008681135060605726804614823941192784312706086058074630198218003663121292522035902361669128655397215353264264537426047277082590311780559849209531229653131348300262635704619903223285302141097463673600160012667112094257113606417569840014855027673106563417420313800641734663193878822465296823547590903075557806990389935883790204976738673256606947861060594249747312472371751316444818681760159799090180798278282025414878418773503162715147813815458596959045772169696971960251553758317461939044086948628121074308480666995416371200736031805300895112808676097573004129897728395494194207608139141961527346049809247006214400041175377999895563807781991000216244779666862103279703098164282538069336873413161005772226849988912005963119036263023699652488391527047011502121514047089233207946516951973726691561778156033164227536840313811831236),
  (16, 76649742530447502763001027254637813661393419591143194041948800224721884936050874822240784622631562587025124649420213467888446369945100647903855132814687490638818859272262971930980494278022418737004991586146466203743042907043708380813936926755095828719116622471036865683757550378851524913906766612161111992479967072334588064643029283714824313506218670563154857565130618338973148429048134929847100428409499861227143642421872030192342231432518126123464930971336064481964938662926047266568941084212894993137583139928699511826252009717963870906382659754962147848267453158472478326430325081027609151793698846416775288182645992044605571638468560886487222680582879851018175830887749100843670641299904438302354287273585942310805182861322239538384362897932899169069267653335987850516087410003401495937961488895155245147893793231546201875805652535686224774441971632225587604905461855571884802274031628910310170347630687591815128141425337478503148579828857123848870825048752500571245446033290477611076428921866400033779321507435802809175741618499351576786688319045379031715128788539359398451258112296704160598371084764843367153960220307267607220327012239713591859671533745016517828583979210658456321632230569938216114387503351365858974971801834205760216985606989040930741618422238225372295907857297814868329699036054766458659730758655273850112844766371),
  (17, 8509830898320606274889190229340271841790294606218697686535775282752601479097469661197158142040200404745694360343812488029162789086631747996311207058801443389461641963483403916127453321007147214589138589691342551636855426960361140714316648886422214183924804376130738091237689065889267734188956855353616665082267262054700648565081517604457793941331910075711037185043651371198679961230682392869285703203155607378760892254329161730014848133735947752143229744375203669014632899618523963431145189300142014336823147445644516948231356839206463553340921163485433064868754124871064504295167266334884305485842836314252755899607763011268572949438486728408463970483382606332407131785019829431124277531950712064035712111286338646696745768787793062255546556716003952082654465686649189802258230480591167180999502690719665305822316155108552495420847596222725338769976711707958891281552920742448022075144704298568232490257816229510071780551963175181745165451173356817531170858557225413938414179377379981977160090385049330271093625760862625341962541381801636596429764917624128728044705417619363521038598044850831722361659973960294148404429096540330731164371802910301703246945373141393617289175784667514085041744227654205030104344176332859410881557390612836549438967610355290670746251958222096191556875767982971128876132390257478276967173496883),
  (18, 944781019961348516650146492229716778317603960723805469664216980618100618064882096512745361868724041517459237754407666460309399829639228617375249700969084605592985351064158742273531645720337577999882983862687861048456059931100042415727870085572282296502820072739476466922512706010816184383306141292363572390713215842760903430175209901110349886519512950245218639507670280058585581766347549542309971964485224609419141675557091769274284201770966701821710278895440143062921417883178724191922981731651567611177209641123805772131360543835839615863091578146180237741394243735688286051346938504015553454097744933924806255071205706145614192299479610427412160275785070190856829628807612504052545864489535998344007066720979028705654723065919547094555192754429284020680436803178943720369525232153506290096797234452694462705159134031811725572382281461769665543310077697131917180494508498156778563588808761481780464802165234486629860619010360107033553604740697330031251942607338576479502057613521725776492044907152299325418103040380921236960943805935478304140380103221325418106176018702722934737879839870643292302940401461355217505655146266343073432641561252511062491857767107079233515484565036908454572960954729685044064927602086314397117377033546699625684961432873904757021100097459472384478602105917716799154153459332355),
  (19, 104891764158632941006779078124302993519345759676466729493455089816648439955684189583289761980412966442200682845358894591341219402373603871837038150742046254568656912897439299242375483938622192693796694860891697908212210325654073699840325933382411103689008442561061162984138208683594195935131867914199356621023416246215390421625100818102187638246900892908528585159685096277802708304091180555121043273894036279828821541849607551805440755131702929470333155315497169360622311183919903498659242972882993920553366091248264288281534721713842939355494589479704279750740520088815300409389007159771904606093949304759634609795750080090270180472542244486875164408776546044898893406747179418779265450441302519963696920896427217571549210935735705023993272257701857157461947983210482886653124339363050858153812027704783093730017515128138293998428809380852963720351144509570524278882699887747317232357622438098273090588453360512687939562136247490590366165298987787321709252688434290601299934724678925874298684560741022694226561374051361826361087298541392880299711492758556682615252321172193930042633975223125338912683183985848694691533806629433566505797588418361722116437230250476230476006879032620416284255915661465133403199036975672213684784898612226230719275183539857666452358464525029391030278407252544582),
  (20, 11645325161134165832420251315061689365465231118050119719389182586301346229729075838777775723462518877535079806579587197223183427865528826066335745072605499701185136026784872655901830803141021460263692873074575789704777439074733912001191031470357451753549954535128009268203409184924929810752162469823450110419875100933680241530759928373891095225180235393214244655145298685746428441171463923927260264170236862276014143091303265942443786516368563012126098898669327308637209544809782534356507689217005553559358113579770249488379532439725852592686245330170908061803817788768057204559915730406977896326934406004354133993581741337504758412984559336145274686008702207246783776551907376618050607066142942695643374743156636950210599911038679593531110656130207904881740103577123886171681618262860376067332551123267541027217486435183631550009735280693373608387558895598899867875692401017858002068505865710556043499391086946422671051788491668777879131317456282418824177713473677195219392533815456037012395789541774369070307907514400786717350580854554917955208409201775983738821966084647944281607999278773228591639894774542391595532100119368135316950811938038085389743461718132860624991651532000777389783797069643524992109696145580660691168484493462770832868828280430671703706459607236387809),
  (21, 1292890812885812518865925449339654621509813772821337588731413072772753775690679876180371877376431256465754091850369494912697577700004235753492890775854227693005881018313627949977036366482066233412783647078007690804562259090627472001721091427395296308282236038803945946816493874297704963898447988767167144300332265189261288639533311067039637073676308984407125164178625043799726342893002129627707697345731770364776363533632769191859785732488599277264361376765795031944700542627756172266732671021181717726557295935731783134208831203164214102162908377486159420298085717714975614904024467485480048339930704215640026690916464946523126766454747454572772198929199860135407634343236971907972631555542932816570112084558523646373482699736400891326929422043138977621144346556629550164253548404329722020015934776601072851550080705286801869034270826576054262298899970674595578077054231091286145529657001911058728117476963351251313068503571457931878855090243667102645914897314797581392230092608418796349877227552293597536123042476334689021460355476864714097087929053536206195902991181613888777489736172104055669068500499064094203577966452393316734019128778783860192840516646529739268988809525560644181879392213996354355137910116649619213147907097772573883244035522651270230583),
  (22, 143539714859038935562800001819880149838780830520813972386482946630467756222194650199446139646629685706442884084385920408902707335744344836453862224241826621922056568551372606010030897073367698489512242886679164981272249466704636982997415495032912716420940489140554824938650658372080340920040516813927360973056487292271164337062948523312930961716021997693222914389027392490189807622156902342874904470278121857785276572931143777496514540691221031965924856108586171066300488068670485891866137663403515431445145960330225333939457322468077589530625879298247738947775723176797225810772730463562759341089647654785492776755560667367815825560383993199570865418025725932941641731982421073850120297591775198098633159524524647686792080466976931947666460352268862743477079830237121227261635279474511284757444165086771491371947537767488819312336297300805376202325587365383265849503001370550060357748170932236098139268897632054143796749147965077758281818330010601722014356717274941704519522517370654575757463648007779564661220937377158921474508429437317550685825377363704756794246756131506202286914891685933819159491821800764018282800536118662502184373973680245416624715211296008194447722747114280303332127830761168799437605946159549113287943937828385207862679),
  (23, 15936109640703622782016162189663706583128652161866108561619140685943235243281568879705204540150446789749078345484138794912320823713660979309501949541036071624776777118079197877771312774883139419672606553389335307922972959426839634489715036605328301540313874309290174444280506503713171330537722109483159941386845676657494268724894194239458694731357419717376179174346795810889606112769361272290826168600538176021220737814651154277577604814409293248323345371710007134419785776211155895581044066297759780859224176281041328234891495726710492553869477892503015267215322913824113838929731311985180102914016860027922368111121628464201952844957113365215085436751280466260820474221144623193634610452316456096396836134657646053181295893639837550528929039872926537192376263766143190643096542498645358752646593018402749901115294301485573449991326832817179702662772096500123525989459676695746927582250587704864881675721424109455022809642528688939591604161896342108157549232881569978858590866031448409956931490636313405680003686451226840714127033637470424190084053864317244950328909382046733005156761182120299870310554208370316313856596346137518567092387404439590629275703008756457310687246761890467908001273345415296199274696441946364499364158),
  (24, 1769263585405138119000482323960233192908546074697270892179081942088261829968675604418435127034273123224339395926543066970396935513481609026322899115914065181342885535139820974656503136888478313615244366507294849728385766971022973426592535459147626665977197459030386122059765483473602162197323568043380069610590459984914171039176586326876196543294323705404571994111473631026273862003797513423371286840826686472379936613959929388279127647626255133103333561464086302348738266017758348037082062170734740376607528771279765397131212114809352537426552438559699565064641376987091392459801061551871844990241141426894222750894048867190881734312487802974616462208594876579742131259526429080082194712918640751670555878924814250149476214432350465749894145942098989867559655544208331328518992648171543035475338526485820867011559366122100179559398125016500800011013854153023253375465491699026296361537612602159187347410707857031638684016073384112203451640936290665422833884891768705300300454930114221674653114724158763810612943439059247158818161706016860270291348243226643785045523479627624791793484876067449831549294437774801604528260698777284237528444774408023427623294283338838875289471651460418624815379833823458426364532923),
  (25, 196427716826043016680172560770320120128047159731919431274735653614220102706336313501517964397795727118012015256613372677014678484683241479262287512273860545220054779943008235917827292088737932033934069036247597776985094771933170650578941973924409502037596388407272768823662454550814982608519252524714432308321578033540417493333888539338890225822583967126239580576735710518858720492878272921318049983883162119376505768007097113025523788611844711707101893232621822610807665547019876356836372750513297021052955156448535950925143278816758341093388649949333593612546649976049001190410461633444694323375974342075201239161289800454648847859474233318987272654195202954981438005296923664061948300710693731505362025792443993706851806604304440359794905537410617078020283537830514721243361617067865644818460458587385686799673986880959089144071055523017580241065755663106985241649968705454509584935578433749172222439909992861937536244839117875506874339273565674883951419120920558399867334196921139899030824038177263203895637967150169424732299179128465454974759672349694525299173497800575634288793572961163403439696120900645622324484012893293531876377031735018550778335701426304493042914173163717280847427603677),
  (26, 21807857386604689097209999994789252695050242728004763172086332121263653612585080657575733259929791732951642663929523556617259108255756141887211021813504953934340560932253343752913196288138716919783421711658491683493275101571795118547140791543180677172521093402512720517343372397621276289194489522629715982407914213972272654151754798993403321622998233770699788644519372004930768149031286507802917803480939797450312522413140582249534979079924668046376939639886119933022114163856368270905468978490421688001359183805555141008933393139978504197268709758566242935221032715871132363771715778485648275884872524838114494210789754286018585010967311602140320533005847308921616799932883013520155408138717323214914138198809646406825903516973802774914713221535976956060149164781039332092439755643127232540248685184232581815323302747000771454303327966486549493936828730435021197937721226881962836358537434996444551565188719633137030669342474401157159786924176973648650813649238427551610498508887628603418606652365900998076153359801183769131511151414997778757184219977743469808219363596035246196401640412544536222928188617016452051827488875805570953816330727850262034151867527592833377664270963360),
  (27, 2421158539154513531810603005068907726290702865307456058911915796338709997852153886815206404416762632652005905249014771176366440740445829500653376521135459770703025882532475815464416201108226537980556527243378139052801252281404891944946142343270265401511019331079447726698595125971065385972605224034659111763610377885103307033665510490878407476086756218196609179203695258299762782871815826043971697734017327529975938349735671555677403225802826558330042092598328383503588641226989831048064626314767255755221472219676680909302399244644415690884595937260895471092558031534002911453607009092471469237749200855857453276139258775841889412825192183176652285657413742017673824677963180275628253934005827352434462622846415173803794191108851352401803911459882765970458868077995109824491583338493297977768626152323186356457935646040793382479713792198995185119147059447598134499670372582898193134597819681886984591992038113700956361108827987193379684736911293178279101861779866914475702490100688578401855346144551273653900456072006846577620961378402973297781902817257660929192450575639163992355253613553494470739468065686978841278338588268047329953291852037031739365416339562743),
  (28, 268802595667325485503351886701272753978495546215236468291759423095986839708439172792142564660026685698746214852578774198946841383505871545562312746366029575677865933264630199782188524007567526895998998121825609424412435894118008440503133673460491661570386989012651960744405557544270884139260643267369297800528719490718034142791528452266823504838399621595405747257131559602055156834805278645335262450312156760412933496758975900236182135080473123853157148159693400636952599756235619340674956837873905002798581928341300549916912127576935318817960665510228032920939408172598934821380502822814827378628141291427137468947156806633628161038586589141131401092942607189686566760402879511760624062335989320862605093711928581001035996784704972415929695637808976509434823067503636023193423954434978397215274801062052117030213103337548522709760820256705986483205027402981447406395642017556693861253140854735527643713637433316832798697973434102393818337110751816432338974607999258107558139235372431281748766127757572991872003801910205298326764670836789788711715853040504054786001681255189897730812194975551192088235135874966270424540479673064834084496565353553904),
  (29, 29843083076265814054147199712651613408509812535741770129024396292590439322778747929905412956360197430676182672806513923163532991410892709272033642959265474179912140655068962509789696374430434063844679911162401343516698773681325726357147039316225253693297727085006252322827918180474700500041320080928691732279774443407265571539004617372682778039319170068675677346436468201901933547433077544536162724485438980137871051968324527275834636614720024690924680234234591405893112073241559760864459749470485664830978371842435692335935027327553568204400765016010415499899650939739920179819934289590160245328819809341570618042036616313223965051727566764787918533472342398706376840981543989114541658371501264753754468105680990252474102182360216520695205285152930880231863742561495554521984314972667647940721527637430397815380846647399524401764644268056911459433631568919016985415959715369640431400947358155271041417210899876878809736558120619723235213449372841986158417492236786568590719050714602350694205203827849350805922356411814747621468246707224409699232707733847838271216350463448254832641557875739325194885747541681996955909163478248357397),
  (30, 3313247795707165327855037421905411622558377546606652180182051641101283507381245138478116484671777080601687251422325645525563977196258167461968461580577121753211915148982752955090786693558179789286811141513159717592124332917868687044402037793589667999964872063320024636748999615527096770097527882686882490746994669861912354772829583038093515109259960755222710793675689948051901952780856468137490423541864709723871916728252063908316825711125008905876963745947643404379786759217643857681020031765289796525944836834752864200445292682305167259744995580132326949687143516127385920990113320751000982837387583714819345256815949416024122248017344000985765579491329910237402404440816729513026561403666092176077525207128704834491792802526919607038626969887314852096741836787096729002790465065849222322619139292538313885947600284056810214501565102513518896579878225178705476110510999680274098368709896825575469917733066443788425069744986182792973394833366514237450935344575356690711645449209709047863914554070895904214448236598383774846694357858206797579991120719038657381085976150328759741936669792889571014538462020622178504806),
  (31, 367844398920005376811955055258757954288597757241135853507893212621413525346407136226116989458756836364764046522819416275003944258553752519770181709552900118966524915318504437681951251806894217609186506298501756521688154661540056096459614448876301440701253953329137968948514541038292003252957048252774231075509474836087583224728585156903275053226239949890239962315871303057734462318408119401382374602399289407420451200488636152401777687902632807221900001577344068440545952048605804162877098841125310081602330048281431344237640017304636931991051757119797980208276733271370037628117390574670442639806228244407735407229104219428018286105926113165048621024943900697566645618583869643718766443715693020892644240743761274524692311407709403745763424802614002386280566036046391429260591452605443935273602930037308970720964625980551281265301523596536622592493940013530536953181112642723344617482785369014387279095125208980548068232101737267257884083712460878976872087847218051107958341719798366991295434366875451203718473388603528272802232335729583239584625336363023655552247710634366240945822305660521401521567),
  (32, 40838932114735569259719016617200224555521449810952113916290972285398343191910717648063871938955515069511920992684205391165256386932123661768822023338927136509717601052588022892416982421448021535137177974511359497389377578705051798332825451552143321366445303268923496963133481389101536752717371724984563852562490430658021226317573161084464423751563159927252501700031316595415248016785173461491737136463893683787706814989080431897232248944148770259736086584634839784835476844035483966193984146627792092271614862982854210486559145622848447593170733677259754501097813231468832691901029338160668964772980754047367733456892230133243109912727617733824671002970916393356770988070784085074828740115645608622794014544835722273875554535354532075734981051402274421558719661541019398614462602798777822973465006916057205184352245052743889610098624002108425876357734446257804108220802088227557869321186978949567150921964195243576240093944698978006223011056419449429759507334954631263655964000586974895169682211936727758528622521340758650995197996346543055826801424541195532954737417399870294439826917),
  (33, 4534032272765223986206513732417133638136987782898058675535567666677077106587190151757480441267810395632839731312375630530760129953700267866942639752600809963477887065374051924218803841575336210330304218208770972899005750636196351771270604548021179844772480649092027733976258196016246495376401670071907030310634488312516561224659971397146042983809155524206749478866044943845927461700283448063115602895106728869299224322254111839395574532075416243087157636056133336576365747292909667293615702894775221009975884825874410759959702230277918761053632264384622096057440565549432912896742018026703702066578859918367288494199155549489626779400195617383875967011540614653269242010779614808302050869579602880482686139288747042349493359415622120550759001477796742843791729378783337247933171766555359333045718619296552477785294660354299233944903648992827336735457212211111440414173138626847091423315960748081595779980915859254401383126451812052892984384031069542215909460852271248358467450082874748932041514657837079083129118191105543731041079364212224181851716837046181607266245772),
  (34, 503378702442027361244950854247383282952590356641504451177327127538637120600971949851058346858616838294687957879750713909989095776049887760612763726863954424253396664863418930074796605350898487530279511446189939537615621230681161969893732163786030467904245624896009705664770316718859114026768130529942854158662946545366738781476189680897741181252496660200433655710163504392280265331234928627131228925440936415307149288647787359626489016369366515025512512246692204363577022006449293676650260193122674745914386087885589309078419284982734787882516188628743066098172442496000067827343209987353092985209883581131067339318420818816484885150197719506561348529854151754917711248641473478330295800661566880318639693025529811227213098713162440708458867036130084212544827047924527980171253403722755480514401313085472670769076403832756250057122333281019499156934767759548473330670692945860910731834402154845763565480456484306104005663926325141109978249380771615455209575660505836793717519434816541767692948643777523619388216064725619622299445601444649696207771857384),
  (35, 55886262557400086968564593618038525194254355884436663118644110812351174993780702130478256844681599415358652945914812111947860394683670674300143093655924784909975808391449101524208245159470452617591515829177193673957754798151668344857811055381425817374440886651105752970282710955005977446955028425305992194483402520553192032906186550477081912664702340608136915648667747302062815547338833058652451609384471799219892225080058042554846090542826094660787444705320334238242805394992459629176906908635118093560398063404152743543976685600668885679256197352277547341947288589064490521131831902748685624341045800456871967117182462797064160498895342976342656236038260037822709463979794277334859276906086573190264036129920658613918751503401124372830245473365873426375055509685471614059479492060784796106855128932042161830362258047152702782893917552643399815596077487998145184953039156196792295187577236531356566319232707549232665972786477381610950919237596278390168600444296943440940030272093455176529842869018699985364167045233192193399732189431139),
  (36, 6204621544959313282171555990571564416480513142309305851110052217535974313931096959480607427788930374112713874790571052266713427838439076256536507348306541102428071397418571352433015665329766508274398661944207091760986975796859171135441641443211173924483649060207308774662217714160255632998700469579323615472377072115549152698332392311404640068068664386846819104526660354139345059915801666236544612638550893074407024097538402211351804663851929940942785032168619438339976967446236420896181472944923232461054791006698619637023035252486367848617786611241507275616615765424719045033403495471140412783733162527904566640014692596356522711622076617556935926532208498170246046309689812995252828461931912326916629298468110107069598559018871271633088935117478659825644193621111576381642087732603476671534729262610090673853248208277425548238032769529312309951353454033206125073742839559606025482395355057244079881436948068312099630680278464651349696285140521449782210267385160608713534179432548316604584282111778560315974373364069848),
  (37, 688851369836763406479365560204422675640202028939649050603636671265519094393091983027729373630941068511763397441097179639454614182597862637017878420587268526254807762091425523790542220940588490971499411675833088551405864031115202950721180814661874495449675680921851158076202629197810281344808098793152046117517462920941746518290908850899831615548055225431895474826356757169156945634569835768936477823494327780908611277708413301228836321783979998815659554989665069761566060640685943315816297461873240117458504163356719983534744493400085554040654961371604411100218717497146254741305309717328921391477854808351591477930324829325504308848568569444092251774886341606738981026320966072968540238136470591936466806334903336184580361942101032304951893867146388263337397060131910975520087897653002643760614099067477464929904438925044694287201820001346596657977260385114488089417277891749576847399212793518593827473302291354321452570029877806768295619029249425530669472791839754862435465872030141750175778731374708384),
  (38, 76477865132974948023442821150526594884360121518440098181480765248812839266701725557704680449564387446950633610725361178384011100884513134512706515621063241334740855936927559378620806905789784937181222033965159857528112374332078428673924892492352363849535944495666827953241309061382234490236076263562052239887439351595130444448110548541873561969590464995801130210641787463270220126260679244196588223309698599331722457222444201279677734727448421265776212473140442198210984835893261228455978418552177740139031643856572236348275650953011315681639589419154922329247687792873748318142174638569321915642159601484066986939952613995410739809566676313619513649613767116333363517777529094332348663477073534957882837427057310956774623448556581781731886750047143441192912082646280715480257733014420814310350394064138271686092004904145049079402746676371640074327475425698161365793425116157519320456266276484295451829422269843489084917606438609305214364512880347312984506412272012481909771888138599438621),
  (39, 8490748674537412521999933139949485245705006357028984465775329079648337278876509978173305238991388059819503101736771014339304169077544582788161817767038907199727089135457935243738068895046968449802409645375839241048418977615815036839562605358807571085883653237011142277356837351976619288896328099127148041827250990095935860837661211553997260338668238971652941303035084257864016881875393486392466646016455208643197484090780243972262647835117496718772861142000615086906002977682106448875148470291760495117516496639247833443222795014416587497139756289806043484488581917735168965394739458273928338260906318459488362633666801397085806983413046367157557058278013289401185050291271390000961396209134450244850662533430635956584620596327310667181973592156144398073470572344016042251054471571631436122283030674482797784734685132564797918588546187142561146041278484724944645556154512110554696025709349250640442738368310046691597187726232550393363914348283703432699770364234135853676169),
  (40, 942662467547966470913691720861799748050677588957194982385149066401083436519656603283195879656964366379319792971929468079889013803035962108829374920978415257627549437404969771616369035816302760418855123454547968444036330178444849839018220273769971545320661799656915870616613439045818556404652545873882858950546795100321138937321988015847930761994062498499127351057333134975411401239527531179822497753899435481734124417121906206057191092747327077552946522468620708683628407267167270942771130932415541996338053743592487979057432738569938941429022097773904515545395507276641791791186967005130487995594535287417780505590435671188046018733039590389399897516036880212124624132253806005271257304104085213321213501878064241797726071863347863276530992642035973700702679674322208429248370488667005287588356432490178130478782101112955341122142874144765621166518692254998563127026570018255123618725223175162166918775347915586524604063608743650421480558471552914465317529),
  (41, 104656557583670182186253132801702618790202009995332677283619728579294352249192650407087246926428082774878336772857057583698140799254925403858916198774957864567310693576800360685882641856696990000473158473935386442388668885421776042848714468457653827423399314031883467680409289193689367388037331872981997495572157910313847685202258295035273989022904388082498942824088835784112558453342703589929994042453407737355323143008094430959294386982808959785184231710456567254571619760875032024742980150295350210119626131625948368630408162786434143456240306743221325813313539295502265001022978395027277493281752875330563358693786108846310455581140982422716050442732970616328806574809947805329323031642076448113594313325032458401503229475904661600888192189229028357649998080113097279765348965797239687742289863909095364000535907169598989349289847529936705625843948106238488760586318067048437534176094904128541545830638832712940392063461763504634893250184),
  (42, 11619211991111367936531396948029878761409038126874506594223303184225836617692575195331445245158027818504244360826067907268848815714121400925724734523667287113908809906469409158867649353294220867820709188068485523547873566214206928884870346170567888136969288272453171154066950135728032538567997234345191352459582613899926068171832183507481530838215915482941935538849741390935629321115449590441645846243671659118490953458318260169273849286440672840761423933267210567690292172655880522264811555860240977300885964950365317809483115007427590972036890403872897134850760051451222758069100934399037234372567523017567573634447713649138783893959565325413078383869873553202563446424392376158065813370996091356895198491893807294466764179113699238257944910666396470807983262337795677701842298676861367915903368115212496970084464166699866539192982918439328020935119947838676325791243482614704952693204284456557292237421796983226449794997178),
  (43, 1289991668012015748136031316580055014840790810595343790129105326815062536416696000498701624574781581821795629368505572613709160406442578051774048427197074698154173222961946131808114360169679970718362379891812630457471937738375672672747059529521215454918496893980181056508932660453288570302297091869539509465675017797372040138855280087712894743431263830264479567511798880677396244280042359916653043659479618149993639240339241785723893625025786715360577548216050062176475702557620175650440980927298861081620284690117111705437693997260070527728284475093943408373234101264924853274959274156806916004524339360056380564688970913581143773956930886711089290587066249306709759626994876848083947728157424337783577081622277928649570046138879642605890147216901099190763938219019216563679138578856336563109563920144993705213798954669154834133966960866328701415967373326082942553416951578082377666910506891980006977722054181),
  (44, 143217845138867797704472151141246995906475677749359530732183331304231340786013440505276682656019293157637363375703762022396032730698487796813214571621118969831498510247566093284331204474536790480348096292304390141114730376763276573592669325690874597391727496193103026828507750731037755803732452425818882493717000978148527548585581597470357063930439054825564015116457191943765738406217539911087534473942286761998483089632842206423093861034109935799332742677366279129496103827927104089240969062479639419262717020328041941356682607350252962259577516776968478096701329163693749745073736054066215880783379940205705006931108330023451447599733968898508098612186132532325735586025132651016438983336926326362581938998912231310656770783018357845642406445684354440354745516224806455840724027226389146101425061970700490722095479273487360750186283672719192325252688940877827165853945677541333409104996159388),
  (45, 15900374921180026272847883574229760007191224173311187010434887029429231667932643410361215092097847360904350349798532509519867268584228844478492093859911185548260555364409081569124522415668405106190906024801633298489052037509349583766156605576969323286569895437807731353006753501983503726677378945179651064581728818973322386158022359487683812527578536486616874118193484358632732655025795964105122383964512622864376791609139213525140130731540260964334628076137413217056694642765669918121128443589179644835057613062053024676766617095163145446255428449510644373027520727711208517088003902460462116256194433724833900166895375376282096893419730909442712295725528046103229160237028598030276912069477233775503763356529476368486390877341456881652918228903486408711279338133638953937335710907069458202895834653530378551553625218571548833055674459788189326337608987952667898286496711200682),
  (46, 1765296233798806927666930349271305550103969204612596722172873988762115455307019572626391050588085121162243058694094218769416694825591410499042237048034916794532701764946330517850679343778467584697226638476287925480710438043845966541333948958977105422255773390258578956333462229902732578728205338952012255602961773063483425888373997373428850055383379836864752052695847037929343559353322511913302936174810063425718382069455199747679569477884763769261365805083739546137299015596784561970299775007675990994527913915394664904058719152187081438999549239471741879331520312110893003087584248387474865353371433310875501642382868126388324158768720084522223023468324734481200835518625441687750833448015557822607320684122194048375506636585451729074671903205279542501299424580467747331020314608199299560982283888638600282924212744843109422401557343460678060747853838188523547),
  (47, 195987252401180465024623861755712141948036799187943830633272135788751278272343151004602766912238844180217788763389523547490826922887379262252423572371811896941985478356463294666735811853961910375475989914923702349079488248692795201858519004053090609631953109447081964123689947094274303911995884179634182941441495527030731312158472108213438860201096129085048253778968228932108422655869174146459029263070870139997374278048853206166157438687698746317710659107177190925463295210553784373567612617048464365201777767205725396140285132908873284392153107205486735339436587088944089000039207069595706221889183738680705111418306625062883833453655304699476282342319097274997121181910089447214224067667900462431259228463148919173185840398383928306234140003721456491779307765342144360583814499130052652071087586772853162620093465696146140045774061472338317459),
  (48, 21758956014627980239972654537445372914665989086951503545103887277959794124016162810423463373254054543188512428234759404510318763860887647087851150090237000512600096349371984135376400953158768628575657920524461265991837810281597497892914082428121721774706550310892319643666591746244344191365175909787839995372347844490468012412390552161830186879680005396782123071211080322466148930024274328123258539337357136503497004649753558443574167266580269322471744014986938392654034122993244574299189448705046296530187009256518162398319023970011861015071059356306011880303736090005780776590694331300921890509544940654220683692955826554835980095845651747799690499982345167477099895288091013538867078717906310410356319724019848975680785083251299000986363652554834545942619617225082651381293194252571943682621747291292706417962255553349700758616),
  (49, 2415729395952720956226791498554008343083572164729543252487939396306614118126973533233452799161242210193935857228402524402450753350311625597809077166857027672500448929366310314313177801441251788728327180251747892240913907033434861971845909781677273900663987157676987265981471277085583203877698045991197669184496964040467174820424065640646195627234254016968150143477913492782366179962579174217136068470271195790460114979187912445451849066542816549024054855899658893872702746569590014133851306866374908436695498344105758580726446017014126178972655149333118943980017953211015349913497010512036578549682717330533886235995163178663564603525759267890191825321833215133171407930085046276251278946459254293219606044522873571514747891551077674637135281649605118275382826815832736011446393234185944517412830255995846224873468),
  (50, 268199839665053225282375256928056071584397875820505862827355248681447270859264064349083202172307212868272184759048603379810159269619323323257534085743901600405098348008426914711379735640929911531188528424757114962852677301196452250526449901170864157398320137741956678391813336099496472967864127593715579767241854299268254564630929398526988896324930986787384077573465254348188049192971402575576232710127840315688790981290289622653922512332974639482222890557201482461066382891716762858034435479419789398733765178556010907231984721622309706542129185861856704512729371584426717885563093626000466404011285568659520281758700566937034761066225646028995217534083103161801116146634537735559941321371218397723273841145214007602616667658892598360574484520105711995968863322835490880687381807394478183543991764),
  (51, 29776163719154130280630429245026063957004869724415745082606857919155764332101387111507877581446192002000991616020199517848977476778905950638713207884818737543837268481623545762358823185600996180218961638192437577961569318028959520866256506071617579774566298456893290558081792538873921303442176197061702348289463248409309518279574977870418630184907868867134173442711144767221921935524052210520272315708811111234135133845273930278291615218737388178162461593359608328764197197097424563513354271109174347871341723803401705875035698894089287409146999565681631326013168184375987371983238786710899391806053312318942716714513258249569560537650216493255367699021828374117333907346745889257056268878273679070703732420930941182989298177976928712158105699821350723129322207657776334504733133403),
  (52, 3305818254661001796014577646676441928258264727894968523975153978977643160709597370230099385641311868231307524200279518681007002488503318869319650223337619334609621239422634275089595245620110669723166336755310358266863023871382709108486453740948417943494772499117277415221750670444881041617638814955614231184401306589801874975816850315747175180146801030376538640987401815484486287602670585335469661193366448857598307001324384854691875545315532087843859404440980934642571998205985854223027208827129271431347351077151516988468985162433980150571682782818144477574631296037907469229017097400470831647170431558234008303769652423238048411737203424067887374294206150995057188131541619130863406873288741442845575970627603407101953631248525227417122724596711275802242339266381),
  (53, 367019554134222073623430920307376795501732829027817988837255542918388440996118407503484414087600227899736247908082843129290451836477772870086354782839091000903431394104053041216960731752524600249691769122989053411164547680590498523878891112108110387507340829464161003852677571166023007070992665638732103008950686455900301993210301535977255091533707754294306554757659947154968198551222078159345524859656266067569708067942506249306095166431331381074687479350940395046012644563940415677229653729710606904334849078080608379224100771295335022914905169264487598056396535511559464328668762397996544568769897195480116210764591143929766791216846206978862166077633044800432142603632121712989356403144043441469231975059435045341386165804928354720441408365788162),
  (54, 40747355951062862591193167581580044541676819762649851615183724082634161815984881979948588548189389377346138434896334016568773102885373563143434042628942214664590890579099723235327686872247877990922771130568739483099978246681920650653033687021635021816851960229356127942879496395033202842575405776239529115073349899251836002069593668491662679890008272497506835155604026483951232504624950034117124941662594318913127461107708862377909443601057740396044524400251840237660016814067439808904510227862431947139212414063876698367296409508512168678292852519967332074046637181264549743613312803271058837067465778341701081441103950795125069482354357303057028872054821178408327567972241301285378243695605099461396157497200608719718720898416942461),
  (55, 4523865277151476734445841006986402710021633886465750308325962304057361018013016162575746732679292363541422017681112688338160533739953773814782728067237753342062578481917243167283798726158910945007791666907375556136850515562959425120837479907941644844431122678325031176144302687061362362174410836366893870279098249266496151129661628124181709944606345973895682525578463670806735769037684079668201377076337879144776558120812786318741125212426053792421935722406479794796093639462124223250169678233867425248322337884749486357225167310980473581043632859964759072512715227987765797520841701694190015581733485883699630446551031421097116360031939965014437017851837203524654572505868233406473446018604539865370875493805652883253),
  (56, 502249939076847378127128699845791397252033160700693670207429103132758847928492392700696211118624323565533735552004561696232394940440998448708718195414294117071175132933793237771926721383187022718575006967418714034213696560117926314422081044598469317957616630769756242947807871707471498192885698237509184385385515586164848842071083817952452127423620935989905058784526543663071029347851065986257087267473530578008530382136689877657034659710155312631828162430276048758249221428261440745845375805809838903476897861678616618013410837227163694173952012421754273625422522594424497218751088296129215663552110909767324928342051205751083933275103965805212117174743431641537729311797793073705567058330748539767975),
  (57, 55762329051511846225455295902167281753164445400986738804585612940139736116392353525977271106624638131169888378315649687345907816359873465657993227711734522168669959324952762742369879589345568527799279077908141256717273278111275257318450224408285152829260678151252432204038340130076424497686984141638813970119583439055127652362404358733348700200842400956698489476377344915330444744232600209361540996550402721689219862736697740328935659948458921491701685566344914489859521070208093665828647589768749947314580810699936902309696654355780766147177519253198320492663988185360445902571902355268565091995402808112013676515100064467167754087608520891709591982755380097129307983471307637421801812),
  (58, 6190708462302497704084640975348473955166085128205006689862668068822265983838820349548139613818035397534385752752229084499019673602817417831931170467441879696624555729143600248025380474803316448391637684187560698465588703265655127240318318881710766264685206782449303001172550020547826787299812675612665358758780385987355538743724750754763449072320603615028665039597017232858483669038994283499312603989252655650916522276957368309302862703369846808702376973420577013677191916025946072955315310856106409216928640614594448253796045618545690856535530131237074958361223192692462081036603885602821341901815525505361498614980419609011213527598111510258775922138303552075863187789),
  (59, 687350673767097682506717286324545055176881112380576373236290681868743763136172645182064527068705168241794549492649506207564989370984909806962189811165230504816157711254580540816204020952389573623370550888377079652142759231979970914887378131672402915658464022988344204754141492232969202769183817368891333970458023183211210874002227139410775141614238234239003389366283996796708393483972604973709642122599109451185692402679868487381477715703040024928342506032596333682885073416296686803653024239027169120623373091349403819536043139158990226116800118408454930223476792978417095194322884437126402638134613368244978725752957633264350758295125896318284464309532),
  (60, 76306249762683207465267864708075576537093120636604172618156976683689552224274805806052572502490362936910378112797475052743145335189154611316946467177245151351569128922088109676440419456033430770433319418608272234087058748530156227185775138595096997278202282166489140152455257211216799471311255706523476322441789389714427927786357457245970581190098944324939094589189502048312361049879009468296087902313634809567596556467318247346129156453340481135381905690997871506610536518676923182494657209729234612718676089529990529498195152921684010663555768849731091990034295251274547677831525997709643696730110958405577345440423144685909371620983385),
  (61, 8471709239557753638387579333628800399486006816112668318565041674458698996512046159191570883655794716933917121023574576942965982494802856273406629968078037934679527236008896823034063091994913578558139622839942561487093146530564553369333462165052760412915992915608859587615741827292883435457669276221093029657357766180203959051875500713690350807268841167633354413638125427398757286695187139483325190215690830648174211207706994395119425351147515072586440473576537282122109719204349722120423614914727487860787881200263928762546404309368874070718589933541693590535714983775599856820057647952322231692639025767136993230062939007),
  (62, 940561966706203237855949992277975710943961936295802496441351268776852436358870397239573266320314067608053948819238127133259513137921767799737106766016719395582694273407836664242359889579561487364656385600381888359885387550816635316877659944598163297342129346210599954724233358129248440033809226566291214616736105164974877492237465226611541052748574815673404349593238755645880872467063353655363084402088170723754291692807256815834595219830728730215074831374779427831728150093485825685386530002997321357052271246693239691344404566979576553699992724876798835682698508973659770926728297637985305165546004259784),
  (63, 104421878429480298264118845279095313001694512224518761522523853875971351900936303484819398320781180301607821809315911760720525433103712769619711165345827821002902993703839369836323630500654800751919683153934449981993974469573352281801839811427574156215317274363850900795298374940868741203721829472513074651823489263197945099636937907788793255628272991654887641895637193162782311243856582272706573666837467581621792326824223652570353864972663845625205495649589370874937130940625271864057469309988315028407638296894755166089375785105460112268869913907553417826234596174120996464573506209547920),
  (64, 11593027254052806940543137856975495919217876223979411687035591078384065155809685254880110283641283061438938637940342712404817181323362777975964622983879382269771265231146739332192537466506239188843555253297826946375688477733026405984286525891199586209054943425372314218401939763909358567944512287669957381218402083067276129484987994659180636159235315386593625183984015776803643047399185825923072805458217059470254012721006325535922856874395702763897895897027734257709971903276400131799412580685685237010535304211966306932327933222033688803178459287132931996285549888787269555),
  (65, 1287099024105598041326340513073145632435751118978049517081702901855557076127215060022033324702298742355745752979109589706944956236144532093933368928444919094636565476032848801277846581308479587666122121163466806453709745737643652523243311227577874191618245666958774463970373824442876169064452741203341603774716193024749367058453479513988988527057156593817138711088664551747091024008653840776036804345767500945398747715183011921273510757335517071748217779359652852838386296232216542291652723925847754554239604461928105427230139632557194795488745167861025263003),
  (66, 142903220082980928015378213538782760882635022231593172398847487700626536644153269282878909345144800980891454638452199276713542502229876426278081268150588491151488089673207003617042249934983429029890721410018146580149179405239013016803315983579126913771302783290392988390579260742648546231323189390389562130232658642038087807642721241974711073470914299163042615920043862122278387160601459370835289863950344639169419535285547553200860511650005218961257829330182459327953254385033908899132400965705383287404323530874347338737530655901085436288749),
  (67, 15864720332265983835810296929683712143713968352785521667620225131354051397716156631311013359640089464925669009353904634098220872521319552509585462888709930129108285892664376989272487169286986756409563239676949955505997862429536168265026396478186908733898995407164862949561541476825218713801681602078775290958206553250036435842881116367889320159679653785739305387264071692480274460860711428482487514525241434212265964158317813075693757651267897862460777092875308295653315404050133525292116368790362342718356602889541729294794384),
  (68, 1761174438220120714865046563840098130702915902116121160424055845132757297935115731860659984030336816776966022112130920221953683084457666437995402717740402530213210774075922694356787136357502427742033097445005526078013934143545361725056098607665829836156432565507622428460372440239464847672509503190275920956235422630997123629453676998050452632939296258887316027624686643418955664541247586304411018705239582706593027548045973418802618299820928903027357231154930730901070314147529296588090357413584132554699526043),
  (69, 195547775662336487384716902149400031613862201177374703981084592892938603591577434354090515020921619966414889634129088531810279015641349620352784428473888087493411809358310991550108168018864540101925047983352573031182895532683401453119258583473862961284578159403849734002928248009614063501608973506898888011947220685972515345230699791015470711612546825961030187969311684594217771222302832419476548418622050932905061118543735960153727122125281295228080612046032719960078556738216692264581087777047),
  (70, 21710164295456078884929823627254164934221556131963319398133050997772818742700870107977858184019458951068126022010805758234712055234590727759629751817969851592931944128657660417428511889540309346555940679846477987337813253256620620251313333019240511878557136198663660960298059814624784448983531412923038468572148524178631865988185956900036208614877552980551283955769989156014490741252071397743026835503522633460873307722981732636992626989831358479821640856898149642075596374114877),
  (71, 2410335324730488354810199032872057551749126326050742364301277598068257625845077227914760065603336011893336350764672107473015176116130215679929554555369790829902880514226092643697435717271188707598262184161521521073157354843474789699611298199988675508435139230606242020652055983301570576341317531397137983303313367045168204999809453975855111124923321710142022174565956452315773791457242367093260802642844508028994167941728517019334527046957653323446507464756153904),
  (72, 267598435290787068494388320388653857900962425601549610942336615759698402287514276748172458737399281170965139211961124704553684592879756281690126751906174880021280794161024922590942183702869536450870299438646432841980612994539081207270996132230416472290377624238649192828229387399986685710736190731836158795586962893822402044111493451060480660508203350311717287102553215456602407985619958711932290554567185995427159244653997013617347625361109848791),
  (73, 29708982766295116460135733804366103889646392039159158324843878370103674855360960734291509480957124474639246597409561540558727201725442082838222115112596796034958816353006531112303337905416709179735725822655799236868791898016798960187262204982175458133944230504593992934722572149307793729079195719972099334637799422054599123613697706613962420190592645779966722698342130010123095295806260113838500707172380082533006655519370304439990),
  (74, 3298405373425259973809627116300415417336705420781767354945377422330216198746069927182174231457117161054066621401718716880238613414843119634829276197271592528906158879837192997722936128797359012414824004828935910431104756123180714837690787864523452347516217106011253513037491829772535262073535550402929399360871780191168977624785240385332445293355823279134431855695433785085104220650008370128070831786716041827438102),
  (75, 366182332241474890491667525477955943546541599642851014152216018389990037417705842258663936222052875188821823020747401103819535239698138249067626037406635555430407523576761910713309482044817215319866919487552238494307136031732303176532761734462756841276304888427417802873517655414471872583789396472137132697667944147564279124451258103689972675064513018910606160443148584501187030977119238666722113035),
  (76, 40655985135407813428816585674853074100618127392739363421288933282473032390882274832158406464715888809890457528648885872602155129461619590291338668946289066185677170836077811535071208522467159197256380856312372104673653567182759884587570711625527239250410018330814187773994470266368756038751150832408217491786142002988398283926510000794068131083235542695491069931003897591712288271665),
  (77, 4516871795965526511065990252142377265086123059237228748893636155871439102881788011927479220234892471103838017845192601979475089728687558410738959635234062251155667297746392856651491947134230379694028742310913974758643598689434914751974455552875154376129665039073456175289978053368002521780069018982410020772455401924689651238205022920895953413395499112042145592302458),
  (78, 501123706821403248713810037384073364756584886967576992190370574898585062351073046480362693699566508927807247672239934358167579938142688392046541459560838066127489837528778768526833144164336884405312907381515417941257386846969064012891165180935883063683291702458699165752808547285658312347570090225134446323068679541602162745526379917800071914005279682),
  (79, 55618872283956523403743885896935213244168408089069007776832793182380488334780674191121379105279760033482177200349285387324030883727751184833428723091731580873071658827141776302059063836288520560868583672202217642498942495475656760470401958204345262621221368736315360006413658700984340090473382235886839251568058105832334287314227716883),
  (80, 6176924306072659049151404670761091469511119557388740091377028973946123493217329159626224442766219164865094094158709380835890229280801696327332264700850230497487019126027983012922525927196628323183866076598702412866495617038403887211848217651160885133832178053099218976744646493909726657338287297167666680422026590074865),
  (81, 685765508599211161542258794332215551608383409178838647562848288577622910436283900414712642025840605241663461085095320590124489700378214011915285423941175958702535783968981148901863393691096517155973466733542868005969089239032176507221581222936546453336968638596916185342051152402078240176911102962206317),
  (82, 76133210633490005487528075772488703572004453847825166383413328987262925200324819031526114271543516909234839048328031593218416780039505388644263163744660420543499363565141955397910277621319889851372344857542937095589498649686046622601470376599940111642857880300162908835866245690087866723),
  (83, 8452712498170644880078733887261763419514255236851330094992077174372502094050969282096688256615534397438167198620012270678743225678746365395895319581131669949928541755215027308480591411483739565303081168879183881988139672610373799841140477059631970357357238730060778531747),
  (84, 938493051496731203594454715250672383936082929861406304471471484377969466721472802875319331417150443495797759193056317333432843940976900319330805158321054103977027927838645775027949488839904255794670188828303518695033823310301902277130925978663549326690953),
  (85, 104187725513747734598648800440844206485567392548627513165383539321870979584557597842070099924314453304458220711861981269155224252995661366414293104915615961286402141864168988550543917535366184916662373377579963946737915326687142568286718612),
  (86, 11564997919086746641366892602387466021607148178459367649957577109669297604650919652185778090307570821240255923547009441682752355673343244868307782592272770991950755249106672848300652939985376506438075491511884443816949309501),
  (87, 1284212866588958518392488332713225605056536836410993644544945484760927732754433715944578788281511225547804212250113529377684557790438188671318734963776231224975492245163220647868716096583063413370300937793386),
  (88, 142579759298691545777311235681910760058795790231030916935736170364740471925037490762126024316229200301530012144989044463612929343800780181991037139845647234046898753225580550389874458465219846),
  (89, 15829145694278691937140674391290573279336537442368166863701974000667399003224735677062269606047611664517986310690367570135279182348793646797036270651708167779140139905434401249),
  (90, 1757388200993436282144697951969019350075306031966854963065298552641945023567471986892992374338343208742797119782388472963215249536725184511474276999819830947780),
  (91, 195106282060246886969956008278082050480256970922139258336926650415672112940655148859500796773584786972827911958850919434767862098808132624649638),
  (92, 21661481985318868495368401402870555621712144069291178092511386100804987266112606768650364441342604435251632554453522672684419879),
  (93, 2404944563272820940155061068987674490629479811864723797007236899461497369615339447652400265786432058566889625848),
  (94, 266998379490113789952930731379925732789803888521605605723131763450114203243054872802475617565188),
  (95, 29648373405447192854704048701947075982836922265572925822632575767491532766078361),
  (96, 3291009114642412449017833066902922780249790924319315783956739605),
  (97, 364561292875059156947889613274835110493810874485),
  (98, 40564819207303345360553522013232),
  (99, 4503622825850680)], [
  (0, 143862307992720498701322009933790758098162953959561334422302026336920885584193162413777245733608587217853241680110696565062123396826924322215451234664891844645599143508817302422452524096434505607474593165296658845202774788547082806782003961203745410044501507647282381912274848900809866059194804748466306736641579578822107205337482183909933951827860485419557321247413942465723510692514579511400293193146652538214061345338570421959861524845882961882176109858272400840983591267696989414429150651099854945371699498211502995397908369861959193673155650813098943208064015871127675830573262770440351006434073439130109711388514679225766628911226607844065954981573298670410780988235096723875014095316854061107331294910897034116911699305584633880844242864086101980897909336613769745692472448805355668867140365136008366806491556402881748144961879245814673295501766041529445156485416198516421747546778010540170824512295110016891190834660461939946130068024192558897430022392363126185769745953139685923118422746974914377501393450183657862039426747302131105247783407601210168991587805376778239147023220484724091951205067473036844641575949712567993045266782556484683108650964150746507197549799528241495272513551228711402290954304626524617891859816340289408362315565016468296802290589226844542494545226409667983589255898159938432390668853147914279626755258498061816712980867297604558064597225287374096085225159995073996256728626397514395399006785349599706956336364394028284155509713320615780897039280596367737542428836750580052671139954764465806800661281890761075290692854744828473360193057196346205191107193602048),
  (0, 143862307992383682753861577401640016497647538971108261354923539432642268666271819341477276473721747652082954752766149336235530762941545121138713487548433406976447475955735855774625413378100700784343537519208258615117932005155117877807103440641396988115695048810624533590858667958954604771124838355860424795387999765341789421732010776067077684680422308651175379944376326123750196332508228055203363550745806095272392233980803769768210799323245745863186511525338243929138084070559008795600757447293411526905984648158816919531939333460526853119149642107386132779038458362902842656630443853757383883052559790247701743293947561327878565849110063249038523129485683349941215286212530441533758173959481945956134744646018812134054302908723027209743991874979954202749149898290770137342115652094674894147611584239480699499506943652795807925456009006148859620297989322946311447710617248402398252985230504954823808777389491750779520823792067298940134176615182487865516668276371902249864048474499398934725201926694017348246493339331471923490077843278594233990307778659873057076385497269664743448045999527416938233068171733213158429992424288003767836534437676240264694616928962740370727138350784027933659894668317134576241897835948939020776964856277015777802231938758327010026817485380782833481578666534714649761073492315832616334952661471352522888378695207820638142826123989319621937358400228132082511420351133852749322580770922352185545712379037376155136481603461874258613130675500949113078672764494712038928733231671398589785367626450439125864749472270834224330488243814378096150605763198456192654378771939328),
  (0, 143862307993815150530568415908239567896663396361851248697493591526872488975908209316614330861751836094648413088264980591309766700237877831415588867966378917550223279205875612698116929908350841383525362768212064595697585971512218466259141397292580867416998131440257068959303846707560127179002378699514607791613692325047749348025830181199229931961789026651793830802508545630532938770307063152355322969368925305545697925637581606388139753219014266056967482779670110482169749866338138460127610856510903341939426608693123023083335799135243797099465278258093171884378040300637468509156375707270856428884622604087348881786738214962082809910344507924525178423224537079724163904762289518244097952635993069963528328384538319537932638359297687804745268587864134738603954146258193599117800439180514167990660200313831781282661013154435047064092874715706673262424328714836873425272080177946515677600174008604709425789081794445191369042196496824937474717703067846148570560665976780693832301483733758548761322244132239540515219441254604409645771973797203095239674712103723512616386959467885129479383148144426699169558898591622687851730396895388908201607027904963089172990620608923348008598136976497180212944853649170313811199807575189446234947438463027377176339914267226206592318068925707866751951933689920424885063647859492297119717785099435357397266528676334907247223047499750766039146413826396385151455954077664982217106026275412923103823234590023113682753225556717417924238314968064965008524072024413006384296081605865960194787209455637753147866106153718246052476690058102237066535831249044266765612765589830),
  (0, 143862307992720498701322009513727969623318331574687817752863087179435769958943729837194257966740887202238867376056618858372623685396100172673838082287133998870929247612997877182852215942147965878362461294089455216451665681666617361974960011333659931956380020516764748900180152882011585547879276314168810461485599037989304803042559275755272711827214007650638259809832443944219500836725956061196877815514375136724049783511121048815980884462209378662363906422142002515703751064687703378741451532426395683015418325890815829316335201389066874628453209915152324319295851476284219595224356165465240604883230367437674061597478528703200404720537637879555408178635044989969840714003826439817396738049797269910009451692796702783526305574641866006644007079747274719224135667479342909379977842275657316036981413289057252446539291567569267405837630937828919631925337059858293813426007063374683825107337727539413655528679353877817023898223311829994149602476920356817907901469697346853038987702312398387944338072454966265327663364371594465748184280673360549756644402709573761394478299967911149797159995717824897591953310376764222424452478346324844261967255542702378980666675283889792658095187336194702496641966289728036773798714912705847838372326569264431108966059169672930263321228705957496668660366217622904343474236621072164032149625628180725647241659770022217756018326840244918748104587035749910483041330783965591810950598182386707273590627842624628194064830638104930346432833517074272055112702138631661953740815207196612150021913570359273907284127898659207285863950545230023649169340619490540272796978642944)]⟩

theorem ccccLow5_ok : ccccPlate.lowOk (69180600533 / 200000000) 117640333800000000 ⟨1505794692263563800, 286908797621527200, 296419895442876800, 2584485792000000, 1148660352000000, 1174730966250508800, 0, -27128096463955259718, -40692144695932889577⟩ ccccLow5 4 = true := by decide +kernel

def ccccVec5 : List ℕ := [
  10591361539162996590621774390337763713087154778332753008408671258865151520339314624237358390587128833484842465758976493715875305848587305984654036540781228254396478383287450064782046551957975043788634529732368941272437434194524701904787922493097184620273134983714081102030302451551255297453335918947841545402390781963015493589569715835913337773134178814769029415719986803876469330622998035503224548705451498971325337982631125655444263956508946661957758066929643656571194729831499033585070896210235224289338863785386057152881532062117077718166954020915929818053576458949025894026061160482990891099843778535541605585905456176078169985030783145653784405055765348848096996199361894688980597268240599528424935353385017313855142667603275236900730862497152210062516383308168123153674184522808626582157010057784065913535800174159564752038375346715409796556243756905853116150800088222621289516750135015804871260659485773204264346664310041911616657935804104719224595896956498765942490051925022261755827967518565543817463685791275340071167342295085071749565432413361606787907898169605985688430034653448633239890393645647035378977630001978407309712113763485871707639744116941665821861268326462132508398344489863870585346580910116960524329555926552682588648606468095464865529856,
  10605044454114844972071473746780978235168327074513716747676239428343886457522042766794530625545356968191847865551500001914848453020576212774224161743856360340552301489465029113557883259415056775222479042682457779551645678339602861788022321555534064125576261039250642588095036000058493486099147054435958534227763239259619455624217240008329093522701987643137669204006218573689328286761394843556075214651987315466824387534732145526945046199308086272191448965775081386378184846010719616637503496627881193096866738038139110675849610407756859495185251844679623190259785995034024899420173658623668363882083751354239835584394253673856369188105709755801750864619410467143914793328758819505673449890242759941725269497295287742113200279840403840814603058907559899586227248203436967806043696954903866787674618969518484177527414828455046723549332424842499222203635472284394258912298130374110263663871427144599181728167795028533799308896633857294797119660233998426824330065473218469533275213005691958250820849938376933140512511555545034940155702765152854584047511090031219601937704149409670580929483685844076766021244747097847578665438999749459763534931930135674188505932615344787194145216316678290748805601066193120459588824271416666991408447298066793135574308430513036628326187,
  10734260822415174243269429873092683283485548845659775767421219771179269190379542301328397928418592027376925191362888514248270606225158355946671001703189305717310558530574024251927102017189560023139343256681939679845428743642115296407035370358213079140828669705239122180320205084154823333318963331313391943230371776896758345336983080606038499876772580666220110051997263790258723909545663939243383859591500464030655340449663538796856943149155232848305922013627573185079944326269732273945071488192769836414922468042349017762133759485140651203644791821370571168772482459837625220376317032801283738278803833330911566588288015458989512565267527096249080883494480858121794783745779951900471601209771738954712624496029306100416473871863719863851190133965693832298714878367327056149928942137368733083281418733977846938758179175032640176426803440833386029154509906759263999672911559596280178901566027969568338021221140690185540014636419913641584496342551892531271445261444832532943316305143914755689393692445357651072623079270320421828258870995898980224861436900570449419309959862357444280353559425879935312793660112121780535133722724691383608493082194850173514674531249243189206942023986946587307707399369175717910814649282012271014543098569375112491286812338374499438453309,
  10591361539162998585385750718826682075555527816872504431622601928291767971138265599396656814899794717309513648697595775819019117390722496372649143940366116296269662281503132441912932452364938866544214189411140107969524108266721313306349946856375970242980391990486695118046745791596524972434392624269708119979601439444103805393529373592343075522473145287782654773810733919803918043189920331019467858075293535354739383688789830777500218673142271427571098888145103498425594634763444241483798122455361670154725332328787501967825526979917960070226579749352894823076907445107240902512808334838947163534521857465606797075731893162705065065437346545052629934835144631554690120960128817265721147796535081050925816259400832320259617954436559452470957211694526195302297211028531630122485599836578983788644936570630889510500634371950556103060947784184651163291359816359324021069508976644478278508097909618712249332235090281816966023052715453149085385299574608840001669891364655794660134516438523293972139088743087684929755687527796319262619067714645458363906740579442317317876917892566651889764770448963570422830136607707463639280639543277916782221919897152544363210987414887107425472557315786022355859768908900670920786495494879940571755326962716602964677386712571689171943424,
  10767744304307583159613792150417146547683207867934348247745473725667772086508615981637567801066201093979347394662910391307710502105941613705523905147509316451224837913857255578120554592735712501848394151176308601428509354091610457316967727901864914737723742911998580392154876477019862474450558202155675206561917955407894797683155150383120562012795480140699237465646357743322862908127535795448418173362489043762292797812367283221135154101704078379684424623087862664567589891943502591492751773224826342206715389418289306429559897533703027556969154097455497535233362784606119054470231258054337436495291494177875881565072296802134673871868664824423172497569472579308185836725920932820807100039244683070446372630405106655494675651550923041796033108602922654578239132879727121700905529077081330727870295139437782844952592710311724413195507844238542703607882245178661589763754958675673843672488385751401588182815452367894061685137895967318173203336859910518786377219708892885127696276239201753519717494778660493083467268277965642861165518564234895959995392150969295482831146946999399111938824952636760661026329800786824657795152823326638923087750293922508873310496047288246844951973562155611568770008575465784229825200123794747806578715925958750764158573590250602651791426]

theorem ccccHigh5_ok : ccccPlate.highOk (13836120107 / 40000000) 23528066760000000 ⟨301158938452712760, 57381759524305440, 59283979088575360, 516897158400000, 229732070400000, 234946193250101760, 0, -5425619292947905722, -8138428939421858583⟩ 386 42 87405119686605891522882861885282924572883433344000000000000000000000000000000000000000000000000000000000000 ccccVec5 = true := by
  decide +kernel

theorem cccc_brackets : ccccPlate.Brackets 0 [((27758620361 / 200000000), (27758620363 / 200000000)), ((29254586643 / 200000000), (5850917329 / 40000000)), ((42880393669 / 200000000), (42880393671 / 200000000)), ((47190737869 / 200000000), (47190737871 / 200000000)), ((69180600533 / 200000000), (13836120107 / 40000000))] :=
  .cons (IntPlate.low ccccLow1_ok) (IntPlate.high ccccHigh1_ok rfl) (.cons (IntPlate.low ccccLow2_ok) (IntPlate.high ccccHigh2_ok rfl) (.cons (IntPlate.low ccccLow3_ok) (IntPlate.high ccccHigh3_ok rfl) (.cons (IntPlate.low ccccLow4_ok) (IntPlate.high ccccHigh4_ok rfl) (.cons (IntPlate.low ccccLow5_ok) (IntPlate.high ccccHigh5_ok rfl) (.nil _ _)))))

end Composipy
