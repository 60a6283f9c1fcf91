import Verif.Lemmas.DocPlates

/-!
Generated by tools/gen_cert.py; the certificates are checked here.
-/

set_option maxRecDepth 100000

namespace Composipy

def optZero : Cert := ⟨324, 290, 26, 2 ^ 264, 72148757755791266802502078740433057197319551264953613281250000000000000000000000000000000, 0, [
  (0, 162623942964916823754395016370730694062556792627971245138548891104544771154594787991691678623358821704316201327820979074149297593860453310065390058621547192103727316171064965583525174982791587727044398250524726196163001474135796697920277256305075015071452701925236357433713833155657813125323810897765861443476728046471575702494166748639834300954544862124903164827612518682335413104072),
  (1, 2423285588099313136255666857521693320014428982555437760629488395222198533335250437135870435907255015390568577129416174616849705987892747260096941067177260548510050965078801057645433427539270035733011154246145483665540200306172966716254025783286670426957038579417678136017888051895219227966644126833986222290338760131102007781909496290281418837361812725720244272647062006386298),
  (2, 36109769166995780710215372704292734265542462208203043947063213515612461169589317398307777083433359709798247191118403640180545970196884982251535376354105891823655698512982696012818118211924963400301923194620804116106750807476207133711266124440698157990403518654807963948086271919786781019158969882879756711530730156791338657623068311224779666320614064658627756973433947),
  (3, 538077491030034135434260557655881855868435832980320512459624015027470308089097103618378223841280538061914892813510494025071251881854692607058391115152300833407032327751699861092598202375972052136128556330435654338192242203824362783206771667612572779167224342194239226566486194011601764963907333782544803039063040115251843343581218361738626929763883552073153472),
  (4, 8017979428619655004654236997006563184685048952405460364514947161487792552992550014773734040091679986671102011366188803900005883582898182416608086789730944929063278287013365330867675954987847812242913008549225963936710003697671104263406877987554688925757363036336571120411361093880740729598431520930525033211775198425512187446082885336109623840598821131),
  (5, 119477203914816007087442830160357999573425187951407736011072205923452157647758409088673885403669152907899333766659729173035774238815990366223146225011030312308725763406782944116364728897831591816272108335458987524747077454121164209583190282349229461168438613503370035489785885371050311407717566949934610562517367114147428185346629552850399076033),
  (6, 1780349074524879561177534314399331801733749925366159320042740621089064638114109570373400862953743731390778720630878166249462406412799964860607699560165595439125251843430763436842289040260771046582897061820830610452718813427464311129719713095564459266612373218617287926841175295820777886887732083571676926677132454979981698312788557055213),
  (7, 26529268540812724250220273649682578470315783103796233535447920536816034616607982209032241214679158889803735553909405786509893332935641350192198720491715064214956219801279269294490696731309529807935039702637966516854938980440709651440724985904010508225065803519182786554051399452651426699524355880079548284228881541490706158088412),
  (8, 395316906881522003564540649200716293905910597798172139159558883001913212128380187626822187244858001585190961975315725340005380759801437066134942955490915644126849559807199346671484278956256357509020415560200679722888284600540012333192711356811049093756917848707442391557818554954271908134439327573769137604050801775127806),
  (9, 5890680952094823175140330928574745266227582064243735956543073348083187534740889884315863141156162025512249170606822902811924181090113391557219446835921095588185522274485491015489069120566562336126589658331457289517383725183531184220778402795055658448641517334737918689570041005170716942572651736678481851848116934),
  (10, 87777986408692943679397269019108195099645585779007314988122466244215772812640108086879192134720472575203707686336854844573156367325149535582279550495073879741604331954096269368901162667769311293920661642905086787938755667160855195332288719834350714917949300593409589661048232388366781640924495563385984820),
  (11, 1307993924747302289000112846778455303604090001866330429734630447715184238861088504388384530508273663849854341740069212180634578191809300900113054972039574957620395737646065440759320807610165784421477502730266193577105902401820765720907350182207737379253226701539921277532409121023577142967618688626),
  (12, 19490628313232992425562632780946125143827348975335514988521105054036160231863076530927987203702921812931877633112767831112439669582513693721932379743831721213063795996589282033380543815749253156355202562120079864247877416848825331263894048371866914382258202907585849523366060711409469948065),
  (13, 290432994264855868005195748522074895260145499934785291381543037205470122163965510632725232764022050880723401984683537701962636667669827683609139437591078202905125032560923676304382670981762562700120694646391281947325112566126050650056741579467299721466650103782237615339352041775116),
  (14, 4327788863552449166852172442109508754802573351777931349568900759892451887225348147758882206208067563383556938408700129048468640726321922376127074182070410301128842659019726064329072487357989051598521046144630566028543703245455057065035277919658717067121929470903411478697209),
  (15, 64489079468733804924073404701195787876195614024608949769148566080516561124789423547035829033455126119139713775298017103684271967952966346707781078304976597721491654534822250472027598292825466936253648959429238599974589582033487032627282853588075339296978996629054791),
  (16, 960962168406453802050253818947014045699697983924009648734114171170568421800607627556657557871933189580001915170485894765810062622619327215859565802719674905523157779760727730154268133109863114046602774120034404382204502127848874093552130462030825906359703258),
  (17, 14319452172613945633921829181657994792241742154862561387609415524096282344681171106588781491926122102610575723373356432669614666037604998144192637262739885756456838685023505594712374348827617363515171180139694700668159829908658669642963378581845997456),
  (18, 213376465031712437214521229953723036978830174514674555889128412730480950655193991397823035819921325411586451452652124085630378508413185901056487554833463090348666759408773194708167439607993227445739377720847422976880623546329446905351934471536),
  (19, 3179557100442802478918044436961353833932582107553110459978380795642189411229660875209572509343557083468253324545669425182486256126003823177424526535817239712861650855812786083542496748529318158547783132821356540269399329128118806407181),
  (20, 47410323648635826543030774821960072523583927595184652045550262840263301331236155151473626213937021648503045155612666371097853127009939180085002155685443710588564930971512263001128447557714753670294187795943558429112847967912985),
  (21, 706003500197326961155337578422597944234434341982682975189710221572757034212184316213103119394512311876429425605945457010784905832511434590809022035821147029841968216405622285726739765894558094486117793090587203622518373),
  (22, 10520272273389537829678656792321731224381915851224735188295872529732995143091864937075004926443618003078052068671940799176203149854212254397178995307366018309328897035964879962317813960362264643023183163663359415),
  (23, 156764268277004449778916154382340398692569069588758611816728329357167055366148410881229661680887060181410399105615706704331841651896742077713309375803045212081828279388997019064611041430185576433836944671),
  (24, 2335969561413904973395800976249595772161605734038781537571286840110601826332188749799664470330652466155867950474879404439841930431491863016178181016218754023962686206234517809358356798810960263160),
  (25, 34808660015930555485026024082028079275006646462434602129415263634272063289404023872165659525116166142982657142167411753350593756530102903594994851424976372702239916426700688407507786672396),
  (26, 518690644116755679303218474375013173926168163112991234594918478380197676371731295094448773512384671808636808349922764409855333126185993033101439758338731441710754908641928843409246),
  (27, 7729075161206694383901770314586542261240103016031563837871444504059436645150384470259033526952125898435926484142436024539167671120043182858819174885949903424642548639193593),
  (28, 115174003730644572804284107783992474198890290969872843890568266256490383942971810615409520280915290134791835630486413486678047646357892306753943325134427976858879349),
  (29, 1716168752569682197512766016796323218085738002087172396222997254433287778988774957172570037378893801705602264977669384590994613172808734163573406688748008344),
  (30, 25573448341286320968083315428011814031681251940624179356491430826336592059202949098429183698229609947318443159437777474081539802925197839309301552545),
  (31, 381077199163485541292553829441612468853023380411503713431768534191070979247108089934714008919040104212357793842138909277270661158489492504914),
  (32, 5687949193317828129250108278626259005719193166947210684274052685087449793285292111171232923097829897983384709227990274720103678631138),
  (33, 84604157918467491978615296346958104247162302047959272166518592558169487980467552742296772078122371622446532364276583331208676),
  (34, 1257763013562203126096234622709265613598707329425669729656313406512323106230177470575499350371696329950339422740440894),
  (35, 18788338142478127074411178951960215161045619357297530368195924889097778412572340903824224081427097787229107421),
  (36, 279968163693678595040940546891690735002400012379979740400635125139433789346308964951823413708445558130),
  (37, 4171849866029551481146219607058470788155108232333269902159611195870000503284556800500897884850),
  (38, 62165633356389910162478635396254276572575175040669449517895756433335686495663143907588),
  (39, 926335927099328581376501986476285140848614287487738213047714949369421761831564),
  (40, 13803406921656080271999345554572412202536467751530123890609193943713374),
  (41, 205688072730141699985365600810255955174768724926050210704101233),
  (42, 3065348738586458726433555769038181033044919239763856053),
  (43, 45704240058560406651586596325048213781466819500),
  (44, 681472604914908127826642088270943774753),
  (45, 10134402628502549787783031228310),
  (46, 150385124248718514762772),
  (47, 2253247922417472),
  (48, 33599102)], [
  ]⟩

theorem optZero_ok : optPlate.lowOk 0 10892623500000 ⟨92950289645899, 39848444114101, 92631217325899, 239304240000, 239304240000, 163157078645904, 0, 0, 0⟩ optZero 0 = true := by decide +kernel

def optLow1 : Cert := ⟨324, 289, 26, 2 ^ 264, 47581754093399772810806677699135469921585173386347145432186126708984380000000000000000000, 0, [
  (0, 162623942964916823754395016370730694062556792627971245138548891104544771154664132599921230870027736679472706174253473986269260263670362124993658277761844877249076327967511184448492331611991904803412472545093544942374923881158212268136293829987630569634205588978715586924805814593693845621101697176934053238360704635035143019001579223695018550591609174551538365845614061466446181499147),
  (1, 2423285588099313136255666857521693320014428982555437760629488395222198533336924669237691577146124303738223110721126570931191234652454045746978568648051020319661557873237413719473361160772233941268928874439509795341701242570567766777827213281604961288633253121146449966067412638860140089867941551435170242666292459052669705093742146780504139055615504317571559053570054599347847),
  (2, 36109769166995780710215372704292734265542462208203043947063213515612461169621126104017604475416443569301816979268641385120554422431699202730672364747552228390044967887070915344623551636328349961087069552355616481214027235050097360513073797641896008923554338003281106930078956430843482669252420065413496983880061677665637205291861124961762724310923415963160603316731710),
  (3, 538077491030034135434260557655881855868435832980320512459624015027489408904551315487300597796114431080496728776432199441567101475704265928532089649568643050261404710726434009376493812478473026760920377895981277029432844656060164992613652609226120946404268190518650019888771295744014018503897698602278832896858665001803192456906200644978246234818095672792192895),
  (4, 8017979428619655004654236997006563184685048952405460364514957881333205092987002880832684335248730646513580004737794474144123142723257155976428521820400651861684099761179207155430076366700498940188658717746390130663847113471156486554320626046249775656372997110596810304972764661540331915321505034867514877316223362004350931350622872719688798931090506092),
  (5, 119477203914816007087442830160357999573425187951407736011072205923449457107548567414943572044828738588565301442346045611525446088073760226198164558607579156380387686631088687972324547056841104993286138066747423944758982794538122805812467699555742954106709563480205859193244438756916578887399070320089420121229807156795487143285912155057149081292),
  (6, 1780349074524879561177534314399331801733749925366159320042738933251433132378105460920789055945388923956001587376017466714346698011266497554895858692594816214757209235556465859399109639912155953608088068033303279448261466975194327547148454323994376101445255292090797297012331313702591783176183872070905386260639555924370759270517820218331),
  (7, 26529268540812724250220273649682578470315783103796233535447932660762265548572663740051381580250865940506519579833146954143117674652166225995430262720417160099696089755232036699705310271078163770905199982320960881158225931800595301590810819180437000082355152297619561876534330069405346115715551925411548666742710708768247320386540),
  (8, 395316906881522003564540649200716293905910597798172139159558917596548468148473599706331261289103937691572917031102032898194917791558933337472680342225020167390773321789196108429298883437819430085375030363631583594687309887634740365921211227698358571266276328199462176045874760856815843444065492086073612262368375022705144),
  (9, 5890680952094823175140330928574745266227582064243735956543071858860249067240787257401342130286590314239412098342918844055394336879361301826333282905093075156509535284955072929855384381068158570335354060616987266074233758130152021370879279648749889397971323936514712741778413926556124494924381547268981059108311820),
  (10, 87777986408692943679397269019108195099645585779007314988122439785541237447232684132192230966554778406203871686587300841924770332070241485811450085831850087789305685611055655409097331933995333360456833274585395079964649963682145542651469148730483171410105008500941523325862920277710267049318037992384416501),
  (11, 1307993924747302289000112846778455303604090001866330429734634320415689992964951445802062714745447263916838886751143062157983722048022413399845282082311182524849149504044219567893590656453886501518061113800720844077728728482696558934354047893107099657319091266804254621746363071281482637311444401444),
  (12, 19490628313232992425562632780946125143827348975335514988521115382677344452665837650994131166160339156183595353997905973753908867187775908542861166405841898754651505850861974560084694509437836742084907212480271160216082269770332038544164877681176365582072505787390460589693892995076052523860),
  (13, 290432994264855868005195748522074895260145499934785291381542407450354952650037445230881818840492053897467242350573653733221729593714743558042425133321489004633748183410263959400996545091891273255717474794265468557065469968034769474515921614871611905890683766252263037304822119833192),
  (14, 4327788863552449166866921477627523396158827569000046152719738384629833086328019053175572546193277482157956265775715009519489722797663594370383287047792128281785095271538000142470902094437214308423443185258438920499220669694488513163160193143478482053982497269432926492813625),
  (15, 64489079468733804924232156779465893721357416432717950902565734180438522300378953776317949503804102500308576343401152063534068785784977541097872588475085264060096051401950857952275219334539484363787646785994253180120003692561290425136056962434614887500681382622804087),
  (16, 960962168406453802054628889447437476512128903397143909927083211403331333537714906050677802888318434656552384440920975661186533646047658952991236996103654896235122681360835279681458871089025842079730836665775821719395224563610770970187869245788209368721793356),
  (17, 14319452172617722947685101162880054279067110269983505245596977937325946078691396024337356603397322780144952369484872688545512093697856220059321220764059282464821510528278648900207472697909179367118757627569296349619043310190759406316155644468259601209),
  (18, 213378830622157618715465172857763405215667568605947233285498497562820287370061394984555175521096246308898251584031107746685137910810648304861900664746589979378071776532473024039933297872430268006446878697894789369122683877070957199935182362345),
  (19, 3179557005684130991984222940330775684286271675124588845655313434813398941196687266911919600956731729654759033914753468357653909325149896763528917894595337713707186352024494405217046070543656477323968012957046356235497388626801070726068),
  (20, 47409888750486206518060725612233579889268543857654444860047575625128374634621435154871213263770604904707015614297831301665748163971808400196360208266513960645219524447805211199738730596331359049906159667794081834645096931720312),
  (21, 706003626440536552579672949324795106284776052745612437442548518652408096630034827316027485038396603338122045262842808944315690592260945330240068551276712828716037831714940603108896677417576978668289508768459769913396069),
  (22, 10520261613415963900931242450410280772233967991886184663369198472854009889642983504356736368868974665366988368132023410926711385303359823075907148070976232481908868588343779077099976161694689348241009085477252542),
  (23, 156764329012139252181795737344652591633805712555520671106388460873558471287680872017782723088895300775033105313347731854612085211518941696005651766426914761992210626227792739784417682494292662445177463871),
  (24, 2335916930721106154938122319036005863311796877664363837126172513746167820652864124119701299720440412446713146184316125142437603137706908615981374131543984502390584142874926910995316032041673906094),
  (25, 34808746118398257074423883245029391363681670250554259184987417673115844189131185729972275677910620047368307678980016103929534738002650422403051245109637326915366651292723713354118245785652),
  (26, 518703458923193061059496252527285350670406707959931393244432938110097041230860525994192606433897457329564839722276447886564095933624573819047128004883608078203821725436097914517483),
  (27, 7729076312926387862922995175409841643862764273739559842508081626715438546386457234810381368657381526009761966269102000696140986165222017509134504585469058684308414536081156),
  (28, 115174981964302497615188520899682443836279636475037629766571189405184980986416583532436589478517777301535610357025072508014880566051862220683436964110427400205186381),
  (29, 1716191768595525186159892159355298608575996002077987616537114784162488988638133162822986544046551022852152144735540407118241638104724700602406852703087229884),
  (30, 25574204389762396645193511182025197930972524507903371466664788136165674014635969500077902953622198331623692199472198621704840171635574987554767408310),
  (31, 381073201549867470956069870907800688737907664117787973356707079936842847173437108039488049499625613933099040114265757822704150692818086999748),
  (32, 5687525779038155041015288180294797413926578908647824258777930981532082745634363825734765408060019514036846810302750968479346430599263),
  (33, 84605108610157997037850591100055787691850692248554342614457327985370066301612330632812761097473280315153682473887500402371892),
  (34, 1257853686094318929147133539829031911437432347193199937973016987233225304974730257965269763974929822493670914291563740),
  (35, 18788303426438177734336448510871581371411787310741746458453015398575390097799819500258617105704953434677179343),
  (36, 279969615497453606770312743607549166823060464051953886402402705632909375794838125955414833761883342866),
  (37, 4171850985010062612946756500411624518779409326025267351368679952407071496732581574555368607657),
  (38, 62167561989412648953096575297650979024029649594865844166685405154652712158659548146699),
  (39, 926331068269286256242073646773683885610876621366808701165125908720138643008686),
  (40, 13803068359093031375047900649608185555063756735502624114846820936605708),
  (41, 205687925610612434438957737011718014822550061555429929499343337),
  (42, 3065365911230531306825712255572511334417902359434037935),
  (43, 45703664300839041626939398345328939574129292308),
  (44, 681456399269804059789199363353859074582),
  (45, 10134610563766937718305872742852),
  (46, 150423427363282341775745),
  (47, 2252748364044721),
  (48, 33629940)], [
  ]⟩

theorem optLow1_ok : optPlate.lowOk (531 / 20) 10892623500000 ⟨92950289645899, 39848444114101, 92631217325899, 239304240000, 239304240000, 163157078645904, -289199153925000, -144599576962500, 144599576962500⟩ optLow1 0 = true := by decide +kernel

def optVec1 : List ℕ := [
  16472322858869602070180327558259667403304545331030464015863220319784289927315052257144118767580068721065276056232994441467721216517898588362743580934040826517765440156783574965330107064819216036186150695833842385387768407207388309487199845718127221665022190804993347523997670854885205347770022946580629958116115441251404054561633280195263451362229322855572633497833937991122761041636087642524770897083988615656362158584971122882764003726070562350088265252821356316181187806104563340851399761461409820063357160973839503880543070676587816876050406071608972561760770989544347654627886556408899119201296145073322864690056777]

theorem optHigh1_ok : optPlate.highOk (533 / 20) 10892623500000 ⟨92950289645899, 39848444114101, 92631217325899, 239304240000, 239304240000, 163157078645904, -290288416275000, -145144208137500, 145144208137500⟩ 371 42 0 optVec1 = true := by
  decide +kernel

theorem opt_brackets : optPlate.Brackets 0 [((531 / 20), (533 / 20))] :=
  .cons (IntPlate.low optLow1_ok) (IntPlate.high optHigh1_ok rfl) (.nil _ _)

end Composipy
