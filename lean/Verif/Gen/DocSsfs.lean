import Verif.Lemmas.DocPlates

/-!
Generated by tools/gen_cert.py; the certificates are checked here.
-/

set_option maxRecDepth 100000

namespace Composipy

def ssfsZero : Cert := ⟨329, 290, 30, 2 ^ 260, 107380323819246909776121330646054711993802429642629623413085937500000000000000000000000000, 0, [
  (0, 615115961653429969559927760833367325148378262933050367896216859026830849504523422657773145853225779995769192433573403051172189177126994877864700946590256084481297803288109453690513190101801727817840407697177341901346538274490484494318424502275720871230924207654928468686386227393081508828381727477863089091889549988338807017063083741360768274003354188132058420959832162670537399746194674225954135663286167948489617626723259901507033125624357022231828244762905771281120807825962523833950689308205943010774356946176307569022820886765502736452306268175168997801191265278415133538532384038989548567178866724108247392128772635480436443885368946317311198981352664164421284646365147752592284000987010118026040268391414587367037138824955115624594049783027342103701559993673912491938248285854763041122288433059387769926792188330084731857299363393120623817315625097933428422437536165471944175708691331519158116555),
  (1, 572871381094148354194991067828021315064633510013157844446801449197186948270093111933929050204554367806547500596915747086677876466072159705557581918863818128110186944984001530046121394356528043577298901693129299116643646987611879123671375682834275878249596997774139483167218256176525269475189715137577698651598347340094677188492458072826981799680138182018006612509332748754450492324488865422042213066747568499752895558926518914754100452462585807814125510436789414402667661766239329784087506237723510815430167099044228443877809014381420799412223587859844902845069083153788269050208061761642232516203202159651504323760204194832369367864029456750846319261350699219175312735710138513384117367094845651521452681523484250169211270134780757493236348247266188856911797891124482742329926483932738478615669642453027697560408420156009574480994996608232295366789799029618824817547316279721775806680976243976),
  (2, 533528049564127208846612896610071244709783708688950021236018696052196387453091435072877491083512425242501777221370252861341346489332765066584182827606627836926083029232920641122498916794106404834705313381859379929158507834758496958456352057712409531930086200846489037542807176873577078315606075467148515071345816683112343017470518194909190572500357573868712980774541151481168803129800470007622812936778709757842957562698534610470138549578860875229344525314739857825820602523583426228022891281105231789575767055060895572289607004615686009590036891636365303122725953907755626736542867927752127074408636750794144415624860610373370018513073713122209008298017777187867230246594093376817086330653740223136082458846167361608828270794491431940168246109609320312912952887189813313638214714663971603527038909538661999653928392532638233610761475290296430860630682480528482726505536828838390990125),
  (3, 496886716749637582196493536802075099861047890678932910073565967429612192747268299640042233358614542747383729760879886207488688164700535188041797678551290032384994467005991042705717419082397972079650790786239672386235099131947846113197833353385710652852511220468663645482442506471254935782035883019816610097275876144983193853376915859905249041039829676848568935668599932902649792963453074924296525248120268581288827175951414688473547308955745780189062727736154968288012502539138806640479104319419754017968353896813842611772857837863145910078883006636802891870635076045324081409571562585986999965964793960772971013349109814544980663926086818336901058036772660761064851267236222998000196749747743279130178253780363159814311961519015413666076443782213886498334100606018160209282424968361168155142568247511802689944848150183047796127511632746561921910854513819529560700264432348884),
  (4, 462761816335504485477221698315884079654745655766625804895130887096386582355264853350857490076324476625196384043320907473087951694336286921093051953754657909632655295548952224390318076203016538247140860917269878449137414928477114171905287870565159854341774452914170590678642044282755754685062806140460642145272229001841688392103571314276428000107248944089346505392901536917919100228187697869070363462083291803778788363329521477604762694147961323008736060201462174834213802605518222840010576155964679065856635329693996391738769227190382726540929470288949583093111300748278147671818264403332198910285556074662023771148336485117322868967201002664457844374741379377769973426657640609024298419057671539098890991037266662810466006311286338786031655689219791591667571081980010752754480492736324660632638748183465319200438043465805729019143396653479210062739266028329158053628),
  (5, 430980526223317240809296908151250406778180651149364006607915169649186155158341725683638351109181043342870086471849034980952694727421074100856717632854970087886466919955752998953981395999916399127934929837724080727563626066294605072499520956133641166930808176206583707294093486184958140072471281644385906071655665526019119091428417073820184916357741639101269194290881545206456538502301739406837488954985380611192527639478176800659893674335728782804233395030348468128285641262631994111054210655501307309389084600247991629476757004279566088245235739158289470312032979071008238150532754470105967891268221125807211959610590809235977815270705784811849892602934985026793210386633619349812229053733195578782843520509008366861481194416955299683229261463475020073067047517876189367324251478102493571234333861519593789417232154722891832780118194204755752605676702356864),
  (6, 401381893291433566072300922266440844888035814416933810904543073521169047018831340301445081000384915008088654346623490546785942024943487812631500542960101820422771312255182302514073807746094091914533572120335028253089288311353516832459271844600924446183078155113927747396839304068086799301645980816693889043904529443028493869517386959698223430996520108637650678205193528166465962773469965352544777963548288352465025889249528206837041187920235902759385292082525490756902039469345734933506975049638645012524794985758494710429753192501847637562100764434219688125111341867106678119757030000158197747324793220210741035355623266104870344187975439457113093442084275641816326853052217310658864478657858025501173080461057702607370149590449311479769716693000660495268783585349596011320645827227409392825681528976072664200224230317522807005345999339198735362191),
  (7, 373816018264213172786218041802235734544727778450524258338420720325009009818389397395257913507879632532679153929113867270560881146177172486327123402580713685995686158775521724032306864621205340991293612979664493587882526508861702710817821179144945411182081471303410592858529932860365881865514424458792329806745545419890893501711438372450157470066584747878509273943671517229141632815347266578749427499769026751335112724242157930783588903294372059960242424962373757413323071875359716059331602418021363696163168751433255983374736093588954809106626519522152725896792286576584635509204325480075587998602171708506882277673899638514242988273691664038821263767902514422104936396861093099078741697048287135785108206787243002254995595473638976846468111732640145353221888019015053177545903516873844689688107236116979226540601466156550468296038757776957),
  (8, 348143296562333752202073151061530909077010842459764572175611481373206721449633499044233852539099410672373281725788365370185003752053875929049331138451317032795107139996738847375201866609235611736116570401624304789940385621843582681210545058497176888568402706928002268875511300620032364377299718986071953369998881053077889142289234672160965828287028472757441246829621044200993771122877744976137819794326459156168775298084603861618111195345940801665960951573811743344331731138784325026621628767210382156805081940064657448524582345240352191734184901242503644206804028998540030292111599865441712144771055916507867787340428955863285860067757111724571945983045993427079345259746659497547310141620907439382668084146920537082251575698039174636114527617936561206090467570712505214154966805774923048255862719997942590920545845195587841462203),
  (9, 324233711289552740940892278274084356685179138984311904921765887526056469836862291250595685596670406565417797980632973248311321951499093257868039550680031099165889564898553162231298039303380634389926279337726817270685346444923042022819207104385995202295857208713891235064260010253668170773703343221984760249032528189083458056942778334171479407965232127120197980506008546439231521680273852281927109196928250375381282096405928849122022592896717898760960003863730555784266041368810772945278417827586355171895936562337726911238667692845169648475826345140434879186477348870866079947075720672433155000432976824110905195413857285113616404910139805589810291174045371564130346612072371311775819110699470039075162536454326606428717098046149194657070588787166280698911359416671105004254032937508254410315877985874098473847581955332052),
  (10, 301966174775318001341905704023395065856333020128600210809862136399426003766117888736162041869638866340199297275983703553966546386013825664173848508559196348456563022824519464961530677325446749469196684041737408629325541150684507584962255418660114707700775199303302201502267280829761336346811934581012241774268940267230810650571042983021102294293448447361772861802943702416183465484774438904155879134652770727918779808762463915476766922769552186815429627920687870359724523957036772156312578540918202719867640251683152242637312439304360898820420055821652521900444260562857268383839816264745247313390148401547152723268787595531583628965240274255927348278989552033031986667405108697725853440601874559678513900469208095950170886559565160672002439963907606311274421953283438385430616552383444277291082145235832951383396),
  (11, 281227915338536725697951115689608329773259367913566726082807533814968544772004605025203937543219762239790798421933970930023627715198160767717145856990661796607601477601117887498373796535140601423752199897298038591933940677609767378272726590428608197440183907098418289331968203959764294649299173225660102231678497295110310102413448489290757378836580037476283369402348718092636475097539653202229006542703168605445462942088415199275574836537067328133115924395746688400448584160676316233928980680969749344809340926062997026136259525796626169790504468121236256967174707904351126536582145983009694353353217255732867874193489353315019991199573435323904892881657275766865178898502189569504862413766672531220472020016185173827135265339730496500935517706268402801458809100859290621515718461821359958206786398529696),
  (12, 261913906166829844655423532882340559524725533941357141437761051407985896591101405234266014344263600408836080154342549787856291714308933138583922625510638390302286928148118674287920628241394275262721069061474910557208527510622299628586253701177060787975959393287467108417272757701356238358932708600219434342978985323673402985942967691729550602693650906417782762462598009092932618603491394451613257102587206590971601596517725233069649579485773341918089328110749432666818851094297119556293701261290930999849034341710197752129099431245270843795223185596704457551243987510966172782885541334211694228337721218261877634456058348725178460428311963828441854321120334810024088458769685608162580064953441508031209001993242393545141936044119919427129566084339288341351452200333312857461772760113872773837134),
  (13, 243926333418888826533615154104624464665283946265799125132859732404338099612948862122619537957258150362256989026761194493487748982672517316959726275420410922078682974118849890574738968388544651924372715001436798420928909918872918587723983173423503328092358441359798524917357375567179395220179770700837890005650916438245589831790856729941024074976938689516654948203450077273509960870285344725725199291857443840099671256135656442721371462232339116722084638584766832569923636605944761506991229613636192227893372624848441405669578653058560358135693867263152944926201585412728296886347666188228657688631094828611863559612997878888550022126885569329146054397564803514844567018324475015380619849342635565769289305882578367967759443897522018941216615362398989905240965995913777265777785321167302),
  (14, 227174100856193179761632489137933090948764184737390955102499325204955506709356663862820284401307022536412802549787978169962530008212213699668390932884449997990096895134867998375314258400858055729766110890951751192034138291024527128528787915989294022407716551199367758741003810956309917587954337430035592993396256527160843677623995328267127345294634522420032832961017337907009949995219342955132785642958539086976662223152050610758200421709569935955551026501941694565921346206026551623826106840531938089339769921200471500560740563431393516510350480202323022872569480011076091628692634919568485148533521217626810503973114116072385813966902753277649787076440710849818033572754771839883154596320452068321891349530956093363378316383692669932177440045583107668460799910286306247187048),
  (15, 211572368495346214400262096093905243043568157346351961700710770864929544468742482236419137941028012462344768037822077209095032893318881932337201137919398022806362151293892411864655333013141579674339025179810590289564932036236419462160009812553687042005096144228584839721213850152036098379599244734305509359944850697331916240625079095612398670329371953774274171293729300599835339242465898471684805163392062356631645812778239133242675555738250186740229443015245316934955688558428045057596363641940538497232752042572907313353932932789278450197221701650648996868978317389504869480779610387511233479027619678400156454669732045570810470682447109534144248194856727658317205874362926856997849023972271637964062239692776226009383904567931601086552437754384996019833895782390318),
  (16, 197042122944580590725189164368347491178259400042101705168104517147810705442673044499400200267348450107821047341285345339304798183328362118766830431222355014464223898289624985181405519147535394573899940755041865901616338674199226742759356100627861024816610053394534475841758633174035789798571956096501564010926383265603255704627445987996085239881064699752511616138489264636935907850478012247397374873598602466288620224629005329681757901576708905033922529451345615103309143197106145071822425883904182643426341700416897697144587869349375949539705598700727419644516335193818788250339744653394963532633952759580297158856280585218083983039757721776560001727548322920763741103582571327666088231494952951097415718370757540823644767315218974813159465504748172253648422),
  (17, 183509777248446448450152915314163538793343491891493746236064021613272563966617960947938449929792853172701827568267793710627405143648723250969155161848622387707441950486623668280807807247653039706777726071925708932444768654368097654319699947375674755141707186954593729080407538613337827658813405871858414272709175260368041419077148649837901107856132741787016034255260033030232841795084845831640490642978539973598344752792672705415102924829326723524901080719032590400558673462827790453479657217816654511942289630630337166795564063190181823320423021655112008417348609893961495812569665674458893547657797171119941901841731277227253420612498095087468637550314573647053418783131560309798101827227550020168164160056078957206694857168125990970454145310806638),
  (18, 170906798214136109175302940713394003727793220329558240469604750735007751701975204933377401837886174370257023319851414962324691138834434795164647662871165562148617534420102525763965963616644069279337046734919500474300951375037522664591390590533311250751565384636254728846631514479720804522571531936394436538879922833636441658322837808949780750885729437495596738769914879669704637733018106929081889253422537356106191767852731480909045931771380264191527057924672467847535024844109899023126878520812499908020125109486452592706858339794972737312234616827781738520196346249510124511613692537225926909457448273530084065126784958402588323526667673613083149111290332600078963290940151287420909833307421420194410134204400564163213325787876548942572031),
  (19, 159169359332077306858546045341895896687911097267231196602438344373374946137867127483130806906042782934621929488937756942887502851741793374684311135552046412740477858502513287369130145401362394242861351682729553872999689891038017966403989671294867294609141894277422436370171154364683483282636415154109184200763630525801742131191154763987083687340588716320317926602378774239753763263109311387198668248066641954588047221416765189797439442457432448513712451672176509865834544336110535281871929669285759123675681167411408274703219033397293221191490371579934715697132337081149349161364102027730003864915463051360547159531968892490002423125600034402087749768757469670450435877949742265071995574737401043547815816547897992872350733089470772),
  (20, 148238017533046479205178139118380748376167469906835999900883384396671267354737154658074310893232732019035079971829202904261185649541945545640132516205354046766159924215183860966125638597982371452135361435571269945241222056595625324551006472944158403770198947077079151170487659391652311461639045881209135242517693457940353202811586450773372350439907371061985911223343815269669792956633863683770727052754441716850459009703214652226537706363901684994739874856620943164763085642442212291704743742114401329091453619059787101510382534333824635500380608508066795611975822768327813383795600963437980311600384710872629492412309183839458671324755793242440703297786302619670274732743438087723841000937255430496977586362702847916454815),
  (21, 138057412144771292065436150057595920168019337492842227128225736689447674299345495792175001365349378454531617436398941003029407606964880177416030798298636494917944003096952904915554112380354079838968218709874218278789168276447453838354913958296327296430430325751266583027772288202915630733258133643501564154883561151046634840603532689412472622585930546825498966813136966629702861509564935048959287348376762121653170327030761121642360083267821010036785257171017941181651768174940723503855321397352426978419449388120134617057873771027806519581231524981433024859617965490959722323795923702403862248828201893473040826712302629043009053805901559055007392848775646870901725280890551756225111787255855923884068862287015306),
  (22, 128575984523418631465580454149838462628442177076677071981342264161862129624323449835344218989228250882152111675961819480200677744080200956590502335036766244953446093105667182165714085456313639729254151424275914466743514199226585997599096929930455327434866061202498695838984370420608325612971683632118221516612508474892596565749061004642846676140871109017019758574652234163088604453548086446691500989079500137201766035036042811413871905133503365067271224254433782460752648775372803311571750250441636800791558140284015996806739985766633835162847461185940999891840652205194537623377792196199605502128951965786128406519454491887776931660926959236811112298968556783226536935115973414586041398258561184527068583),
  (23, 119745716940070159235578453307820914898479522277300313097743563504761205636266106586292590004604543449498817022854294143804048881009408232374584614333478962027883243845465762695031320169860161588763959169644782754353726468260014427452438445697031288812743556874337322860010313261866872769754085347166491222206976706993390401591623029120120027109012592394269233782282371704538206994730343918946174698918796770824247492876528006481627474521762272701005700458644429795434533674347037678664229662008000218054548270650149450194514133461245581689149904732735953637025207441479293584003253916963489537301087060864043093107906163319196462348488769807593641959163276756935190205656231666188006628933572299),
  (24, 111521889399802460554594596203249799924417885278631293305888365492933621291319007599998814989444374525452793597108027100380555615769148089340501105723417328696589212720716151124826930621508659411933235050779565008686600689087076510724088592172629468899912719497771303039053746743003719271862958881227757057367802324698687878197005119433623096605877046889472294362716343603828200832187052469704444550772356139304397176382483492718145278995336704554821183686956997579680661414339393502295551402555257140760843599947670437390549492668717021871081245423110121465915255586864155500862026886487341454593864137049141440915169844922314189203448168856083046595529880955576120904759633686664838507),
  (25, 103862853161806669602724347452865727175416318027890560502082449843113889257720678672193377268914482114326947924781615939345728248142775231358130560930275664382231619880270353634680556712214517790761995176579398111148365483700369029048912778657515969965525641569654739498210835031237191773823424131821614743552934569469220439805465699217461231094641394786793614764936752207267787785932938194115211528693547837205668881371807426356855504198117680165604922339150690249643258627434580310511281018341949678046385584504489707809710723838230741738021536138303466107839559218256650939164212599334331448815619651562852709629579156462753917198747797401055910219642933905802881074213038290),
  (26, 96729819813563180717382903632582842535727022241699100008311169075885684469454622522176594723867701473019037325663134399192154638602189003823446632297966316698334757127119557591788989223739614515343676485660856693189931552578107480936602483184557380122622141213766056576940077386086053935646474484188139395355867396940167851107249681868839616200722275045334463011331996553103063372508273723641102821546802242482060848812954940955701157287446693707771609085562592583030099510937260163001954951489196124666739338999687776602210133563498497649531663855507559999289173177687780010406123718096168278265348814589638093381312159049657531676470627037796757574804936455813074146),
  (27, 90086664830858987492865793064779455341144485624226834632746101427716840495778827482998925004031231136078981054633049666129196657428693961187681772092325907850949798829033558808070597447212426471844014232662372936671535999121244513370657789692801777387617287425106444002073330232953702971009994932511013220819909653777790688343812644262094435784210981596803224163757083355383726533016639867076192888197658961628190193295370441239297343727818824620880835051523313083835489906332779556967789584014026586931108049334273257190208720012673163521327563989874433045444021355148806258430062641423543135285373681225475114491989525814046461307432035159678498143930781860),
  (28, 83899744628797273610593558349441229683481609098824518390694727588181235357913027967325341891526459842993860183873260082797330485124787279579492073592102069268887675208070835851198618716758141733560724400600765772789284586088028283203633306261898742418379790545540343971991287761324754869162641566108652126752693613878517863016201582904207191787908176744175694116685445542662585571744621397534364902265508926741456931924413412266275106292130009168391857516889643120739418804898266199911967880387454728379520271403965479562492035729073395643319992936333548244372487779974421741046971622306482105646632124977009787518599791908640468723312329180031133102),
  (29, 78137726177272641668648979020715905058646210561343020192063159857114064840518895506230501357024963798927013002217989492041366626624751165117595413319861580868147011108762431751190329638084528719597239420377431225766692856408681984249160910269151201861332906918172113571307904213255730408933093496991052497728067053776302739184585543648187969096754149599296989539596244501171309821722335199003331031631496517870000925998381816154806551099758892866936678628581214314032697759289765270433273433834689612247160698598639700455339378013642664517221453981732734214787486819452563020402627602023739668896842282944277222375101687932118573583095856473),
  (30, 72771428318016828660526293349187732728800001145659964710532836482966379113978608982852195722074214181794797072390084613153121086419328269658233424015214276377248588119412243134519392287437365129214934464895568066990648262583354473346062852320402118600641827360388743493784512564391479587259557623744735200751976097550005858547258377709721058187331470862402352443962968815956101554952669020084825591032802435348534909064272216047229518518374885941228898327820175514508014948812360557605954566736649129580960470863813910686190750188703950233990806318088557821473008838056214167464361699818832991687800284412877829378079696856643031590),
  (31, 67773673979581174124522407864395280116051436537560042655591700675865988353247390112701985726202106272610646739965383534462303935009360564554327562465532008909851860366214293180517286329937507518767318189978197279377512878350312331082357887477057165938562946772991689244170927517432640663031363256854369208824786487766009224958227102966765262263846490329058479967269139414350922742642567614798273567126207768164986220768208037273726542470676364777772812619792370761047126763688450944775123346355421712614306957829071164398273214310091901128156523930449212979794543504082295317368681499694827801439531040035368936365379333369),
  (32, 63119152541813602786997713022302165735560875886641482501841802779460314990251688391624005256408924490782103259084172113297790228397921253511987219066854574633624274624711175617312347823695752321525773210430701523439505024208046804258933186044038432650047897734732434485790188834888016696752706405262375948961440007632679087559661479755097917110538318689077656025349330631075858554727331350738810495631339046476298237417507765364071144947217108092268932642637630127634996781448334343346182727183202936585284502938420463013468315425829641073106005896642311265797019487002166502401651981765364114281760502285171206805),
  (33, 58784291652788969489743665812818487859853427751587221866326222922150338990848221249528234132015075991658590043973337964432118673248143171437072771663642092266701417625612742842465963050439723135461819554148895222171680093005343158039202166759421972551235592476272714569970107668537246287113860211652760798530545887292707477558595364553499226384848696694145750556219437992414918117802588586458068278543832285746230600289251534294195861259095480677920902725972685014334470624855006774054002750443143451260998345465849858873891790170958020057734621334768569307837525092032917926304186249362874949928053065781),
  (34, 54747137849022605912521170277910761404646027601870914796671106407558861180067268432609954971834156654457179870431626182451954738468065086227909449174666863183212855482113308126540820161290208935236390264843492975618392315698175849122693723700050944911759255365859484450768709655713402104927951251312060886750212590110074605989117062777475964801692242383954390458850058044244739107212124568020686210944752592456354667090061792535597655590352044049555207445538120550495909934596098744415643468828057034806885533215827605740759376920945698463664861473289399694156994689235402236179394445019659559565),
  (35, 50987245374380243860670523976824024137711178140594544631122710562831592913779680088730487014943879707210864751070389694023835229191989718217318364581714256837230972463370587794613856972465486205403125160227988823892914063173062184019009901329098333713821112638421346816700008747245488756372180133999173200176822062451553466326463047674028709394406756213383486308969545589583796046736648030327359351444358469254839925028460244246595853093523927136452723814014137049339470743985765111157984758030685797523680335339146313393964936275724936115250033969062252779075934470366467347070430192209),
  (36, 47485572634618956465898569651715479919417927172588691703158161195769526915419548832560411668330318953106985195605447230882789221771051844784355130588369683210953113123188342707803339671777082798446645178113122316820989866918906126439025115511003156620954062861062011205633065248530737611942227952570370734706825855735082050456173907527139326908387053930114193184587617018912729863399376244636435584571848408197764621048417261776320879665729756624107958163175846737557088232403374725634176308580809202200785683897765922642812925564916926052230828944376854077470796537803616396847),
  (37, 44224385763163637803772994924071691855246133331757683030476943772071531895007517964169766445020510771411457281192249833497022485147278611347410018172459381828972243818629852223958205126018340511663486425623453326796870058497986837387619120965511401222819339276203805847143222491500534176418076219664393036450179456283942594734181521515789407225122272691799756587477017024390382747237646205502615066634031007203089581018017083938125820878635500387034755841792052516505078774947013584496905331556306865395463963873556328905417858036787164926254613785751146194008960774448),
  (38, 41187168809737672846552911143816720559490968782229053816270962145246129385202674161800897163358061361509801150478655317329822559978141087430911155578176846568446833471422877371272263234498296419347567529403223676323520397745040719817158147004047297445577482895322825873733492785406303634606010865111360349128230325747643537417768049747675285715254777672259756933187820396818322946675663476406740628822920578696573089845593223384380246619685638121774111638319033367788998636133350110317233274495098710768392877076026405064939066218327041864484835808165588516066),
  (39, 38358540097007223262035205162890926524522685243030128829433547468153880336510645376332939754573685453748145280851661523179917186478284269041299033517182661749838696300445941622622556281094944774896102917263371943500447843173509727213069111617660267098888590772595831584003991942430696861133597375308575197770552698856291963381315386202697045010687554140238523458138361608008864330466078958085638971648765548981556429656466984710658631178776673310020304075257310424796987685707961619091065684508323091841577823448326130929124715868601909238628118023788),
  (40, 35724174321635834185439353029142065462211785133024797615998934459084533468364407658887039641452660275388644338447285372000110509319495660291331851405261700740548867194190073543021611177666863523303659638474783936591665436312561126454644374987145510271871777589235465212294457771383649988849620105499383334606894638048681055794450163612397269893492223107870525583282751415772079358364552895400804540508501355423689527905959780241675594533040915499585728826743756142957183034220911868510821301759184352472969169551960898567039841078531457758213),
  (41, 33270730005238050767629736130258129408780285281152275964616736824702968325805298666364550256591905164894316660656859513372285765893287640336278687608672027234976029774368409456392169414583146289117533365237164264673583602510811168650118185912220017684229876010706920669421494991120070331563612227253588486940255389755181094665214559262080375479360917293796384911787891590613430259550166141402601525798374060516416885174297081962826543783696468410134494695736844407961822679716603369711235888809157603117047741827632268089952032172013),
  (42, 30985781927814754441035665693001942158472058625102300163932830863355629449528920153495436773255379092781168092653955811050055330519832335725686221950382019614501843556525857186172985181165257734059542475218436907512536706623547147704032197096768665854446940251543028072392874579279751326138486195935735202389698081083415391455491817699505359504964109073506588760593071809921054959093039622511932944700642672358742929953124488090327182267996753869822719464305520174370870529073717237470359866568885038480855785547823956757140),
  (43, 28857758201486202367614643362352570666439885855747666362610488071437579998307787024877440904504972596449002709848765107849664362631582036358943415765976637455211997449490772720644111569291557193948249609060349877421026451301701755631826888315562520022759555062840267915309557195655742437221057988486958822780208386073757171371707887494515590086522956925846667616590013910793359889948554156010540521421071086815089252446976425777516404815354028764988031800470381938100552763310081028388907000135456063491363775258858),
  (44, 26875881665839070796607661398456032077260209113124447281109623677504789082620094553453327067666661549777726372563061404833257536060718853367702546182985533934669164291949806887518501878825105498528883699543025314588270645419757153974066963351926110281094021714046607797824185173893565018599541360579088790673587966546341728121791399354859221695535904401652697096588867165763570480853143110831032055178951418118179106040732827315481002789618115169722263489660006435774731481707360574812116036163685392982306),
  (45, 25030115308090179037868661245755881143044875108752816245993248817981024349685846412045254435079788369850932036119570401341894209448147718448536985082790190811472744496773981135154649160099710440723110521590239850406756512973875351991392641616255851379550763035698570675603786315494893297363182133643726339366770108935125849192713711286923453292598017576991840523008706102537539619866176571626195133128726857223539329840477212604877253616257527912546780695405835497565962689133082274374991912301681),
  (46, 23311111431652846781414618013199308089022408340827390780666143463906854716768345247996276649720769720013190094492929430072161495986508984690624359532146602727086939708267329211242582506584936077428000916155575852035215652840358801127296164516757351299011016056610383782834977504856562511234828776559492831291448239718696859489576892781072268057122496529007671582097873101358689862599943408409841621621183341150834895082582964518083286146536244894308791328605069587545666445044769991701004),
  (47, 21710164315675242600417340186610173516927667279567002114528923727485215958923422962423671642058314494800930930767185095069083524514019754154145054537977366978067408279118819062528984677861658548806726034519298610473313724301733348876365638175211392258538942176952408702085889866067501253701894578881348125763234607984376536926333192744711361984238160933920937895702402021370001744299087854213474946765735373932810844814667593039872470348646969048591281272584340069546397433416297),
  (48, 20219166125799755193681772972094056677937197759344244482488300397512704095731883274785868490169117688022515976383999292539760157537399585070972905363173207963492805226979254958585816902550552884270806485142986713090780429258917619746311963682389023220660560700082509004158617276904118785911647587286960354307381396238683999868229882214901197291681691592360640183292089695444135997738319138978077583514819684761511493869129316451826021731485841910336292068617905224630220),
  (49, 18830565852857898169832092683849909042881054579600919487409573418565750211227576504262041757047278789153552988131851853469182673518879438626252747646095773519114494293897514071606851333972260814103739824816899023345576895341040122394262473888069800019175322900469255624058216282764755578838132185584699332724741600734259537330365914513254270632313156665173186242834170553569234770764452658750956662440583774943198963105875483727937777064822727477447377745295877),
  (50, 17537331071549931699253705035755326080025224554912112175868426839416940815189066749905114471233485698800186580837310122506713629195041655804146707944266160904170440734400473528113059045020596765318774964533987067759884418267738656121359356651089503485816225139977628316689014915090139719145499549704436686157628347815953024571389689490826718107016819754565812861914058562341146100148327779397292158606411311879241674288246765835119629818568443123486640),
  (51, 16332912325439911055614897083263216614746697763830527827021132073753743400681140114955471430649722175130665175275934363208782877092087097352852727820917682189567574838391729649419227787151436396548611749977692567873700841832375677414789242059546846998855465325037743717654837241507024595177345746619144678654216234413623073277091778943857084880046531613869430816113337317549689312056285722723447169608416314513990746070982985047944256097897119),
  (52, 15211209957897580280541346485971674895609447512617826300692867556358969418002782655729043802751081137574199392722439123329372954098370943317430467558792236835183258464537819727732611060895434837857090072989934323760078933274776978246749158562560863677096438296144876451609471534453556014302148344840145755396993262178549152285493136565454724204251739951558119577808836653341365177916391130577255238669815305399374061849768059133140345),
  (53, 14166543221005779020992430379587854161494828306713911053442457867740131593972351543850568965467444167633246722855757130454919980595711957259133570054670579325209044270313829173477379936351081386034871924547962320379895956356947813318662352865846147305641420360040664927785833837664473642270705831633059994389117838527386502554550315880653152744860327088781488877127213507560335565985667528750092566511971923251098378716490492),
  (54, 13193621505988555979907913487020744161209862964896998730165774902458607184647427407148439793231761337798406737824687481737945777421807241475914554527066521093182738136901816163269596345110164719622533262083568364055552021418521453521139764354354602373114136635334802331234879537537622644980395994536584434310753275387047722997960451285254727360694881711320231128910028948509472481775763069410189750384322357989858658),
  (55, 12287517549459408949974843754452414960800301254136218200535426402598652831396901300568755416817076536413562029572569585685589366550410752412502881965397764826680907537453076987067091160919457180639583163089861798336352917272574367024011520482393178749677365366861856326529863969197266221609373689900001984962273328666438412023527044828074102471791501922604255158251962155890936607406999891184913895626002975),
  (56, 11443642479795412113866623262369212964576024230164854536607908133013886352718786339543190391743555981090972464512712989450658703654249775834390601299968488047640249434121092485697030043450757215172270099529189253876474718808541666083721537733136219040890733817614030573582811330243443426340344921020805219236991420506583672776827153585521612387093006262963144871655696672670903501341569462880636866),
  (57, 10657722577262122290089143689679945589361220652501488285804219849618431273763868527444213631878855984350398473963833936975124946900081008174164236270973798592803948647052764477558778792964477215984311357227126546047954131257244991506927883698115773295857180586778252687386908446417370483255679740421564967644906211634989849280234348812267743765445064058184512205538976911772534338637991399),
  (58, 9925777630197719909608493929804605886160674958038485248318768456150057983831429738870673378541897455235734840734601142262834888244829477488584601916965682185962594768481733844121577606344271350092415515961165819231584758428635404485312518558189817221491128112018095229334286589886389323646529935279638196583351605859081366474223706161908315468001798654039494628487836713206751323),
  (59, 9248590255071859635910455671618014705663254149058636984302903766037872466662507439167202576118559697685708542840278582793080400094405862622055250299134341535356361704141703437164212561144922569874952901699919695412229249288339103981541022961531736922050921134976102306928215026407955895342024207984081249299097980206370692087110816440483675211008043054388897341868372715),
  (60, 8609239736210854610708814894868714284845066772220997345862904627005721027899144916424033259246715781383078341536379147538497349839574922812458669162664795903314581231905677865763111720751394564401086956037016597986208969618727069907174944569401957962613955047819633376649424757612227818196018860171681779825642068499582615023417457202467273101778444507411114385),
  (61, 8017979286740475780034029959780951649424612764867111150355632018070981170394650088804920611235190789475677993343002978832956247832482752001029897317175220728061350875046954900107057734600209927181013007072022376408499431167596068951575693194855772159340107826578749081262160042682911834710603088881107914868577685739007818490485785969913560334889069040),
  (62, 7467325126449694822904220681966607412498619333841944090284390602367606947156460119752679878661188891800221031862393778992461291583204427262170609756752898514208879199198377737661137943087709828917921149950368390579813439368043687076042744107181173976942923157920526109961206193184245228324884893662615099225274606268938454535600199236091923431),
  (63, 6954488501117216023181223465850434598792693635436800698085004289646029356665535708101256488648418626446808994877421512802391134005809190451117049167687421395555512890350987706478921415459048973019770616880981137681694194133777950627855452411427380211378354067174580049873045215187038248915669535401294463751512047319693128770737729630),
  (64, 6476872111865997020429246846456700365676650845193641090974340434207302893943490901267274997165839178747453438810800252218179904604506345601440932922231908637708706568172971386225051336470321940245516865692281694062214926451371386513375787205097653396310838825307819997247003541454539037446436608076977328846104632107334713012),
  (65, 6032057233149395856090858931388812800190368863883161675012874419768891259475699826542101164575466820490152317002109187199428548073366463421558622685346487965448703242998424918601953141168384317567594723408706078221370764802585613969227263392785422317569947205703809586944376492040437002137326236871334544058379925065),
  (66, 5617790852861639258029622320187682398483554818538206748539302786139898036174634736685676859749433716371139949526503217481767214416033126654881683616144884874766416547359891913584358773818670415949007912148664453239458347696930856441154965068512683657561100526057817729626272917988289620465645011068648852191),
  (67, 5231975635644672923962944156473989004680090478305595175550303408624889129095669637668526608144882516820995530286497243046617891203123534942757525262714431565141185942229595578211251210513269064639027195557520488025677650249584825740195811059395064058010130132121393746787445627498966205475055482280),
  (68, 4872662392324359783442643869503427690975311065479508376794439666660327779592586448331416679862539749823059228195099466174763472154597017872692695784511581858267234692303718332412858784695253056441931944789407673577911051623899983442581551183612526594902674982125923367702398558419919029929),
  (69, 4538015471993026599538589155894578905769277690343340441645331149291423862060144523893671882934767415093183802302259222321725821042784806400337320700904126807716657479969986628511731550100191434122109065216384510814329576829494140736405819921197044347840382572096343780884800339524),
  (70, 4226343303249214951426692529628272019847396483676371672977467363445626881726722887238879417133044489871509882695099971370648813688879603895345432048655050818047926632313135331965572055876194755839498122462058861700403261506982003033021417453283770424063452714080586862802),
  (71, 3936131302804227330622421553767968823272648429115173471503010296663490853309123752553749289262127722067371315013487741429120998963981429380519346844478936422903852975173862561880953632261177990919728347699830083032405286178837690919369453865956935472350552986154),
  (72, 3665795163676718507749664530850893681417559277053712294392809321439173568640918992792906514976966564371086242001774304100720338165279900169600691857744555269362428584722245306297011479571518631084822799283640765161168119026795469667109297544107823587163),
  (73, 3414017389810356962613460959447496578998714740386349383814237924095851187676725568257622382009958554934889440230255135667550220139284276367024523148320632108403636366571400430996521283642695141106958649710820512942791658102119631241420343983956),
  (74, 3179573620908215740327147290968225161919587972516305863829831526844271264236059196244280450093329767098956908879155025778884548993096781523258415163868623883666560222410333323023497258260510442798102849905471841971261365348208540532917),
  (75, 2961257553967040559802319623755344743442238207696932068646141170850275322133751495162137409537783893802089807134974767384793281840304816650537561102459713573624223063479762527803892493026545150612601681620877632824921618297252),
  (76, 2757829627180513683444208222933661299791830254124183237602004059999903901120596550245140601819465084918797143053331647971949400640720200228445168742634151682416282726362495301105490404885286196501085379040227585058804),
  (77, 2570109726707969346388088930359453830596242637801393715979210556608345880823277737862975348128068460761522776603860397512591946598275074913817867315392160905889012464067495345410750472931905360556416243925914),
  (78, 2392031380616051055621770376026759543666106570836314112532797536122354376634975001536334882803528637646009444987874143439731335441265203980848234796620491812106797514286660396431393358508841932008040),
  (79, 2224092544575619768629705248954711135054014146380519734491235539094447511924120549567843816361358891595853887979564853244074992259159458113697796326662909744841708993075337335382792379465390),
  (80, 2074757828882677909375095694184090391849729145013425779837265869413737427897895683413233706915826335872626154879055720958993893549539463323669796794174666657292329364055931494415901),
  (81, 1932268716519491342558055383562944007024908892699641080852455616575855911669444234060182593454886812519086253536597945717702241312586970701124552130795124863448585550845654),
  (82, 1799565496029590687258860642441840934228182667270051491781425390322539596970511911553180573821887886222569189139317287872564898595506630279743343952665840435460379),
  (83, 1675975989681950311410046312453981799032835443275888503490830182834646572724482700558125220348412592173184953181047509523699648933233010396860214550629462),
  (84, 1560874270796963763147946921307137488614453196292311938411131162105639608199188262119637251218378282158943780946003750419887978427935443838197934),
  (85, 1453677428283576319984557119793414325024342165268031980892950189957696112212613154947797383932844345464845371341968567036186491703272558),
  (86, 1353843931598602612069632614863108052608144749129592950375762396206203574938042554896132330959737680841510793177692596801675891),
  (87, 1260864145442411664818377778807582731360832777253229695449222494514276066264028185159182507708865093293948358892957139),
  (88, 1174268313445054810670308523241510107312873914930646781322197589460518782673127974679672323622567967408072897),
  (89, 1093625357298916659736834948303177321834650290483661323258530731054100666881753041299107217006281963),
  (90, 1018522830610936131425448551504713257087284569880420026904837375529562988965074003345187144),
  (91, 948549599122186184229861120856860620309486231696911024228843913225023950177738883),
  (92, 883411565457317248536461847600814081178876647239757169101607625794075745),
  (93, 822772416418227134132422718050394984692563106663010520604739595),
  (94, 766226883376879170876458227351368859765013402737998497),
  (95, 713796354226824713789219421523129208307137496),
  (96, 664584847498196350357929202216621180),
  (97, 617996266175164793045867948),
  (98, 576484210878813543),
  (99, 537548951)], [
  ]⟩

theorem ssfsZero_ok : ssfsPlate.lowOk 0 588201669000000 ⟨1487204634334384, 1434543988107636, 7503128603397819, 5743301760000, 12922428960000, 5873654831252544, 0, 0, 0⟩ ssfsZero 0 = true := by decide +kernel

def ssfsLow1 : Cert := ⟨335, 282, 44, 2 ^ 238, 852335606507718550273479184415515781036772807001862668563722933671670000000000000000000, 0, [
  (0, 17019661797779550857299210374549149173901158852134010311592773806780119241340187918346730439163325933998748525357809765141240536363573505794927111516376804833667004942222409258243828523903251618675983103124173714084446972750098181033248357750798096572012513216889798348691154692779446460925812501580250670956668664537721329002836226230182613047278438244023093172743227965696628842094064018506188017446126840673065492412412595605049102809478493622205825851511811098708174052051529080333265826920953417763325055119549444924270528293737546779300586961769425182744334927230306396009547321031617924661517521841497759786877132737888434398118052487662269810405950451565154614491410597221770119741240099090188964126391410087232577545825195466701381424208930124217196251427182371787142335923010807765868572748937143713993584886092423326338159161031772800973755192226634443378066680741562706746303442737978484082246174582838474924868613085414697489515380946058963262672175463399146672674506668587847507164311732533237002553031440989523234853851002782486963847061593909893349654696752608728102587514681106215995019616430727879098050597704367247585943781918493685089817435650695890283253069230328286230324390730699805274633378390958650869288366099916878709089936114783606590307328303879118069835147316247835994378821156095422257267536588),
  (1, 967455764440475767133830821339253655759259734857892585273064799297351285152910117991878589644063932496393847791171638456332887947358671328568511371280283403488454322440612103164530056113974957195067821835674164622358089943082756066885869913153220328013760150548125599737611235740328451181870406206840622812516623101698845005264287592023186621604420352242817283055457435562893172237526415444005352665392754299379333384218432206867481841611521168841012800584838436106348015758358603780679108406329386171098863946983183548370023362038952358221910512939383874183041310017774003200062641157706930508852424386617358310722757592991911554148011540520093615142544514705369529028718631007996423735566705954454793490559113514071283698885454255866727830801500419876401657151352375313815924738787096275463473902000109502238574064069071219983148902247351096910397632037622624884121042825780782245278109319122808868654420988535488693872361224969248668280599593642128486369814095475290299446453357329956256747422087870241185382405313073514100507606402110261725509759451817211487723881539951221017811802780340260282513912166506962742978232590139123711278168159022087916296755390135581192926548265846490725584373782731886526615125485377605039832683827431997991629598858098508111517627294275423256203289850368945420898531036623167),
  (2, 54993493247393176212303320729646069125877814648100217327343261746213516127733675943538775620940210302273604144782645929372670704387853182229748163722449783306754757315992043411627608754427851476695412988856001255860410875759655258825993650654778567059893256927587435696842205501316610206110363276754959702686654912991960202661191919561542057499788163127210355188222901890804517520196351111053749756672047755010870183935960097123113532780480521116772524725595214710344181171328648575847586721825415803044669698180267889050016001535763755226861946592827273103866975248921221646018161729768219772088993089858909019694849439076276028917114551581543234167771713647526216966909602787898917566481234805660049598224898154007461933664916385442151390555465556358650055695809693885790648524486212762479495096813114312239749903816729789484478678676299054679082259383665153327959103115637504748743215194825700491042152869811614933579384581626374103367556198399734443973735515158613059077192034280148379852601749729080503753663695038692488585549977366380345579304371991149844687989386276348987235641810793005261637282727874435495862509975991903243386594516279320219642694874436222754357736973569429329730835568866853025601939458572116921007089509544713420226940350734015392306308776994948187043568534619574161956),
  (3, 3126018171280587478821833015538576837904987237840272048705586584345241824833787856251704830636993523414367026861250788520730492586372587438162791143125206378201412310090293170311929813716906862549388562732474455052648117757579215027930879992639948287654377561897685819578908052637678463617610491198488472416935048442608160863823736665468803579403138606222134694020434261051634480292952452546941785651145423515280878287737783530423799492182327021326530298528906241150717799617305478014235786862708198614465669503503470937745078204884734715668738919750198482681013004419197707535327124888239028001009563118879499355971348080518422612372012920943386907466765044865860822301385386299041065159903604645761982111535045356598283705246585882397153919935374755750181791590222557721740669025379494867341346815141166080102166517173031922501506482768260259189573262643710592556994333187494253536036955301427078146282570870102581943803041469700144186176821651068386101696591425112479025443450691325581947315596523010014215585509134719871905551383415335695989631581444688610637501485566827180969705250407587573276199447141372348881593850166834762287849041304911690420943335184468678746849966997211949840658023185529246560143426841772544120654110520866586065049820743968983720420494581284612136740974),
  (4, 177693560276599525810856506242235857252182270135578622143020003497056326570702131917397811698549135338360373842832063276133026908290309361186859356571699571429770248306015967631988690625172856843470786016750620038501899543779200884496895013890022499234327003813273553281471098025444829523713138496446417344539841476637784629919209275241701310472031912367022794911715337835382483734346831883325523088566650558009364333869244974859145684842037952724156769962116086455280185397060988521743399068254132010592097089073801665662419862024122194024399670965419686733697119758471541645993006846324478146983074519985964407535900557890957118725591320320530995392150666074625887931028658660264330089611644647825165844010169350798504426651156157969758440081274859551752093966613376537528785176274802477852925813490622306068054814570693819648187264300189553797391993769143356668075847783551613570844317859574648567488495739427945702396156189448330057254481985716410558706055712669464244436437871028174678471979375215211390384774974171193617847021050321506541184297888154415759319583539686886913391082997477090999832385770746062360109882567521526070571751652275869249212272949625403309955971329038158553672748284543772431929147549246942029643350738318372113934208851719140602757392075835),
  (5, 10100709475670983341095535834155945011172108828280819474401823953090588848380214808309904793676942934914698858098749001108730391723060470280123545113138992032291426329835301637103196448218389880564176679442347224181838756963952669394580824126138764952107010447734498557194404953943650839602988668073431730621214312386529435907460155888298988342741717608931980686959112622127036259732155479203215866651058295133757629507115608183718545935905578558285740766798203734156242341956669208783716787152919324091277365430062313047438912123204897513028281023561003549599327002310448145066914483229787116596283368569639404757065765354200060344504651341115700053877886276053109344549638147259767780593427328794362640479086580473555595102805687009225320286186783601143733909883789923331849882018665656039699995147056846503201435312638870444642003296423317264894099161886997309606970801039735892965233927582712048320305860789360894538824046862055837636437149195302907394800064297483967182985876631315863179342428407455321210316942426789163269931517169235244157020795826587205821462809283677792947213568921611697155771002882199649151252652229929963834035672422596691435218622463463977657651466288478881773928078227078274764534709349058914829109495154798833678389095106225718),
  (6, 574158859516898209056736040688289506941379660718258689621610753482092880425410317474751581907920748046461702534699554752747325876672475162656811853204259934517007555418518997902492426886646505895679222217174084572766262054071414092651413291499623309852439117988438883753269974132743461700726394842230986945492890776366120684739380288209473993830540485358368453430507123705810741951845300218520598414844374425101570381407078013110011962448060021318141296364854254884235293841167572781143734752783946310687347558431515213182985469484543586590250528363469786063395020068494897129029805121984446634936981639576680838046605702567217671114562277384804332640368637196820834429977347067502486400924692553703567066271559533319598420413206733629430334011041765987056090783653084682194720418411574348450406385764703813550003106735353171033937713586134632129326512840456882709308935222968333852681831290565549391702130276178154775539800302312237101783511245784673403373869304966700638013308817748737971321781948151981378941931015022301541014830909953901953232886813535010298228937127598242787994421910070207274185324565543229840745445501790784222039219605816445442413234611576585769733483387927325806272018695015546613169940233443370963024393382660298384381),
  (7, 32637152544162871041449764145925741271490759386225516301556737828496629869358134639853209472898967535824209706714757132473739936624069466839546967844640899699982557843811662104513540435087094573173045672386597548936962428687787342633522103568544895884567672396112748387694749347516759695550171889080444711083424111641654729097546140122260225884391529993898100964913005765641329500786315533021058764395796426077911882055507135937092014185512881642702114752686057663836168890223210199857461177133697351035115591368566766344826275456201960116132484493134017274282373012784130758322236740677930094031056197145257023248675055228558342978030479706333516204141813031887393839727435449999661877737302944296090554044612775480195863513101521213897101032116854248677626343013397220738586516695165651095598146732531651858294732655254308058753539155407318381439128680106073555179094275788096930499205059193007471372340030658054880844682183121918073181399263794061738271426323887808956085949936635832360846557331798091404046989817070026957841032027586206483277345415001680647485385257348395814751251188479869841679828787238521301978892814222205245657085531834181032557162121768250792705654374469787667162974452340168797189321655466561525046493933),
  (8, 1855207332491936031229315866876603494773164549441475873070245246964113327371599930293837671393871888530168786628266680763416612570840099285734764171402326820724656377240743387603375847168484516099229362702464956608819331261644682776564087792425249056382635467122824388053160723047583343006304624457268614098860786705339178814571490654672074122367549193421501795734969037178037154989528717864064831496523108062201111013991245268760622717849905805150121679655857045863522722028347413916973276692129806578754800703368730770809308720356623332243798616047134718986060246996778753526499884032109690203906430691282277523110925280084920159275036242319583019041187181296523876177626259908366258809692914016378061903725516129861566308241013826544401379218181157276217263173005564163573971593062761170271750480129138765443679105290476318793033270803498874208995449401488797117811391545446133926648791474787130274698242278724748644827925480304176261379974440471257222468094558234657724224461903806789155030421162786526321509773645316280416337617860401847041408964415880350052688048919380990203368686897423275638738420469863608456029169153539973872757037663624044048086108429711621290018006346694249016982318526211048268596057499877),
  (9, 105456327474481442506505338023805705618836131489017354458056004600855051613257269894679533956256812446677530864932730353496970824996884589707790619934390111934854779590338204548253079745363977286798976973754233575210681195906356764258139707659736874142176672371694188999138118734184862603700857133462057737396025158053542941989433680570986901009720736136699872289169038434581418356943272434822621988617078617505803266225896394914833690441463761837333190650034398792258953223401216173270613392795087667011262095875777661763624378201976319833638971127988668605867258552687494758017291861877553674805863381765353352621924894519409412122467204518503924025672094399195239624829145275065669873482476602920587302714509321545326844852580636195358717815496944780169885845056850313239616365599214252102105288809911337245525488258302052015272765816073655465828523856712619962232557088112634641113245034327037630470173755045192479399703550140830441273350764532646203873727976528188220005683156063653371298569641836360130974384681990255120448984406805435426337318957105203689713055472150254326381004588622749294650196971579828289756718815646819751303999551032029365657337093294089495065113267425717870026736835411417016),
  (10, 5994498194154484878396564114598601555532930631728581514497364230513486041516970879836181550004813086995769189396283442959939453942120314292639626497384035243092897621314603188025846506284550360237459300023728791030105253179633380356002573288363741661565693014591385519857915297403955185228645469434357990928448609682478885474065105004853359162650618608080314532410798076090339825267578387116749467430570269783959433097260011602135915065984122625044005340557441672459558118555447445787115918437569215883016914624237055122854620674500814201952702477973900645160710338436914622656570693838189865363774780163401348638063964119945734312099009319496996803056260959698362075262769509317554541930557914808259840681024539030953635116710482546475038189598224197697086192701663060295785022118378548438143360750783966559525972894779408987521536782604758210611127329374890465299441267476456752096711782427246429630426162679027839412643253773572579129510078133706312390862018134299288866076432205123458658495851806911498961985690136824400098858829489651692286155233576555787994030840782774997087956235682811959754863257620721660001290962278341884277489990413019158581089686765247135171409625588665802127069),
  (11, 340747771710680631167438384329591460501258702136543747343316921985290607694706231986639383535749237068771957944834607756089295318254262059135705072627845040818379949389202646899880534549797082504338692389395009230958365445737478032470026692428958862226732720420806431312593946211333967836972389559057205072374961769269184826161171315837541394708444989196341028469464508594361394970495575030142246500336697737563976778418464823638255158242834717443884377448594118076218712676305099522955738304834154398748575807999091871514259575775486962513634585905991448080811088608058089664042340581973120863322315920688450901025436325078109955107087782192338015616560918895423605673696354539808988583259808873664128086468894440913980472051162450486044358310221346185995493402030465364058897504283487972836908402579030352215327729821904410915423084566114719102691123964696081371121672373135763818220667983320815421463846861584433145994706827864145903578510146646921613710367424843502665123300115075866515192580459746414499178813137334315416307295881408505962529250296655978905991505315068167297333195671505869330860675453286029168742570852090767601030605563071831028047855443916476832510987797),
  (12, 19369268313237207119495814386572843687944140477642562663238375193105332965314245938466193793814752386241022915375800025463450726775491947315441909303663410402031101363559323937117854629252467617808332101355688861926771860779438045055373248284749869425623542180165170027100540790532589189579788896881905490793938143341914884908940809727797693239406555062279325538239874537928323830470593238154733995789723493178597481029240999739514288549050588553875762582299223485973625013020017577386837405403761886120069892058330189656445530532408097459397348627829158550025574056775222509746266827128062007350731197833115563734210673543482372000457352860655941626319987804246787658140833349192648237459666916741191278360744817916144351477888322938019423744443195402462601647886695485244363388055115544826762183602685690587095326692594604519073467165661350640577807659362157202906532625706678982006447979800992371127079692457493315994233733924918300281054512599626070979275142862621723739432652595866569691651382982932894590295470824893127115359405154449305174916947517455336957745872418845376469910369324435221460833286805124567263519535124206573005762763116419995623890869212486),
  (13, 1101015431756718903642184522287427835632578335073649365269737654279272929063281818484153620478011384093464523367390485501769644928088606963879209917175979308128211264577164680367664836310977285495956272220365057246838879381098084028017936377906941596940188343305929380852634312221459207966051331873240172330607614602622270746732102095836449577712218971457748781303955328094634969060654909648902389323536879895675467709522820299498237576986559165213507332185783041380410907835313172278508625675144792587620366478991524539676761977057600316784867914514070320911238809935731452923422046144129444377006365049508290498080120027415162295030401777139272822082440258870388429626517334612501043182738593407507344097515640461166293181538940739665236003712825812676805987164694002823760328124741633497510648595043519080141744832162404772780617757495783968066462387993721064348023920750138513005563130810649427874613289029316814445617880697704183107618711473125497011479768420507681709258826923137755467041857755330632703010747194095890598620984812167388119724171707403693537050648974331021178511249547099778697831007102919765334454564892478523699584525420034181039),
  (14, 62585481359560555099630194165878710670800633981437463561959342216554940083783652567271566367595106845184575568475252424705652454581957440716406035629460081288937730310929321170059713285296384441150864416861455609184695241600484452420570072371614378251944591699266844719467957942325665951901290320236067391909251375785872298066129934331709681470796281897591414991891004325147774185362260916969170769080897110579568772523249452859672463602382729573804870835021065510114278131101921887790730674802534428387182656421801115111336570013099862799622215767283256957264375122920433284326436174777647945352495406833409961539757335349785992608938228501621884962181896113720788446828313125836321687447544113446201025634137175337975607036152915894486964159966601330517034332268129421676858114869736734784953656752680570361671980423083694623818846671507794037380528650257740127114719984200657010180842149983198885203741974103411044766327271885709276815572499427582758004454938544008611994556697575276289542598406393613796353628686869907400630815632458443610620121239372507535826221192996284018654437648470626066381540080990869103422926154538251609231501),
  (15, 3557572731526792898627615736920615215171928524650721985947219662679966636675524828619448178846773023746241936378012975677941793411603011959209995645179565217912211796313461102844241468420499611576750818179644716632577412929122400124729783349926855081090740878793601764270303984990600039958581551231649620598844386210309511288081121979968752468198333752843121544168014015960339644684737602174730612266608722539988819592238624685459880288498353000580031609559970633547111340880173991524243926665038454097338140878821440941882006541908359791231190773817073306731888090196062263657606781089514437415795643684104760610939829849607464331486633824656977404952455804053071834457953234319049270120644978995193943605066372053952952267769778181315353809770990580816344604631848236792296889244532313294370013662920632584778231121777899095882042324374819524717474809833316492558047468736139569871802270949012705447082828266037633601398765392973907148362933972437753487786454844850047579635802147305077215626329929549942631789003460934846455708058305321280326472060672036834766100428964028632122577701990807208977439137200482534681333030656),
  (16, 202224596905966387716240190964107069656388860303805016994102724236197823113089090646749819987165496044454012938900460521719071119355420021248050695997992830707074278752398930853601170180155555247935741259632591017667517287982400382857678286537000933611281020534625086172030932231712088193863880362167129794604783581366377307408647651525868267765323125379559402527321140948989730343597420993247090579337095877007687908658148483337975010755278219709227392374940031547061570386186644527938592924842763187447084242127257365489299817335697740743750958450639066874978319244530887792642444560711466697902737350044710277482137243880147911444446172017261561096246052906456694712692992656363623322665330924332056961601261264559829588450139778623187852692990594957123213241855719492669354657787687452153900849318948532806120928108613463545208080850345065461291198628011352074629501870736186904972710472080151961247938019847863419320694013187113173721175055038826802225281016165243802231376714940331229524369349252553881082494830169624844703397046569035275998504985017432160802505049234393701202861337936757991602102188997075),
  (17, 11495137465883907891352475358195708261995881702194140927650933249208141155184483218746994452156144236849628040255337312016710661700666379445468163339568993177810755170889872877842274771191771108529777692389904531050178621170653081143068350601026903269216803695066180703863149814862486448070278604641721915106972095450508806346115741889995448887323341601788763598922352056717371075569498145412529230460284900175775414291942324970135303530882891874922926966459046499668464229340920867795068313901240525606629276019660742661545772155915175437253396815018529996256116957173742385766250937863961293833515152710679926915253666491097440188514959901647136003343388009773572740620482583214405043752722219723256791891116987975070037635783540261741482929395259481727704412539897897551478755046364080000718849843830461241942484598982156489092750898460480216664481504066929703078998480829736413026611460529359979282416385350053480607902985433593531364277451152728890237546152871906788736031809694165074333945108474321762067033695893656291748871645875366998359270029637983820947422310595684527120046266955955907531),
  (18, 653422913835806178403372277796035420010177955543562173241465032402183007615376665100199855496392969874342954895799795850547904007081932573184312976739476720115974056334941501395535099799859103116533429578675198345659886238687083797632814742031934160264472876353135046876056424870426238161955928071718171571943235872510559053473329066150395697566372155153474272931495764664610480597815361841897426442090187502786614816838114448395077916466271510382905885675145697159022360514252390418907243309902271767363645041067499202060035495146347165542508577868187421601020872343105075533770466739010590440518447983807696534300001236251064836191497284887506283846495374746264524950998592554747816588162389681363392824359591191624655093589708896557728095830193247897518329534579329696874748111255932471146292762337385772740356457772679703324440320374225598510607167394919154253678252831349420211337616034518879813801667486753714307623268970450276556470826215201626137494865616932014317545858648100222529783225993757187412134604999477867528283904737733954713055252563863593351504967530992477336650430),
  (19, 37142792384418395295334237164072159203566227207804909837788331538046293622720478714438732793973541099282042233414801776834105112759626341197890325062159986380036915325885132767526505392644316038771048032383259757447142774179103741837071467104575172030790376786236211437202224764770689839790289174272753119336314050116843592006337591223563987203213636982665904777803448534121484988066604378326327744280785481281930902743972322263918949628661693531222788674037115990758045456587546506108722230118375578477050853568215370731879573619742945440870992086515668777706992186160919846117213600337838790400312668535722641224461707780491445999809454216692004578235250250076051995530240081616900664383998870391467210519894667011743328030441502944470178295182024394159289485229350181045607759259622717360689997870583492174606320391811117828582822252256721345306310385139549260437843697244497849842852545963165770158982714027485313725501173850887129871044979867056438557989482657754376959290345303493846009273927333137541799733740976382649179681053520629210477909469989793197841204059553),
  (20, 2111323305167524909810153824541439417064693043801350417981457868452610774893428169573254126247180755585875558234352057345069233222126646364693574756879569712284416898790205594168952836335183521826539164998351893555487934814840613275752699968539626071946621367842238409889559123074075719147816083379481888149275280859276540013885186864602245987226390126503810323458961223316321422093244813045562736094824770207306466019416138934952809315101472607876916565262326684589768629881947760288126245889300522620842656252164640790799227872663565334196970945970083295432884045501542396892391318097485949984889222840997836125175859562178759972561849777774138915493434522077220321864061199019738037348375423389444170095617665392482154473990608763590940627240822178265000739886631288538965416525862536502351241723832440604639984538417168380312871996058161203170938534263886168964685711177864738699546845907264935099919334033894009806643090427633430328945737408448730612461287021348788635221129995160451114048866551525826900960772316022848257056401084049484741802213327475473),
  (21, 120014834986223201543120570962710156497035600512012389230077239315767813814854217160544415392404332327821268690647233219412398353945641609055518003792688529772727684916742736855266732410153936247442013893666620194579078020913164736825405041630553232149999380899443986543790238276533029826840452379854121326688714410652013385395388631002461237768920348486506686837115081704969351340721733154484964876179718101372285788068901350411170444380188235293014518291688925989420148987502884681823971157487001814660711044391457044928118357259624430572475624490096311256789748271727381450005097730868164293164238609509148190525736164865580339665019369989395654404819703521243524420268541381517583990515728925910785741506309886374720893652304365261031924207901284072628660557407311903563740262308025955796263864795637808358237308465485002129577526666771882337870054558101707013905084172556364625647351006694034936243113875306813707254031336655143805257835964056520917241841610232423747946590209705765062773770695956645410752902950903175086286799030247898067154),
  (22, 6822053534632641546018053927736568567583822215966187583835405764362338562412686380897890523579254268487447273551381000482501710504586845277999487040727247504760707949841545135727001957670491733974928018464346461915913438412710816966489633252339969666877515288629410096279470865086581729135585441091173000057137551871847641984651808741231277381809851959048199139324144749990031831471340703642736393486513753792467343150116298057308224791778925196752795630555336060150474906294157601781988157511934593425666691635592837531120592319352880350397978207113161306373861744987880597459803571134384108322808232630997959340487645668337433798704897839199426996568331065398132863304976849279520784481158611005995103629725595608775053976666730252970673894257510997832514403112626798405889277461097129981947207494734635001592586827277964772030503957933762480890737827953912986990752008796282375421036870813274462418586574463226720306179372122429951571465519238607258158262941306183698515479426906772453698212916167522478709580158083860651341798283),
  (23, 387788846559979080326346202567524901927744293514376044176708874395122766282650353610841337034529162138338010297012544952082277547139417792891406807071191878137637328895922629256290403968165022318710726862283676264036866906093951966254828292468344538228707011093627562347562096936518499270254405990452426070597627578527387981049048945648751065494357815114665250992183288757930303715473923127930015282715530349404806608510869981347936163261859132760082254125980856551363723741255718612460231861918198308971495079379524611309062302032344386786709178080872886558713706773394835290715528863651908411221090606136421309920244957275076551019835353632500243407222755630638241964372852211674156367190968930787803885496171891509282077571171054545964326550911375680860411804478925495714922935547159951908214311251132642153121308304349959082520758453022530312062461573909497562489813685556893994931022906598463266271006660731629800922603684207277860785538844112756842681581632241502273806037852237553509483038006169853467171895975094),
  (24, 22043243834558500130148456865272515979526377436421628554893963746230995541432682421761986520012280956185464350313199301586011958257780508625467451058238559547682901262301278919511014690224614146172298595859256025962444420320818606242871072280896927294901786984475368305286457196900670355163038379399292015852872030934997154704947714984015821385944367143262368869738070813919552149142982848839552348335674329826179394360160016580490273739875370481518203526205801185334841654513138973462503983220126761947780513536564261956038909797881090602239739321882845036822551750761110184294816868987567457278559974444909351598193606612120767573838519908844544674624604706611870233467011516920448097422342270983093275981447558356989794328176819012698417593769947668130478728908543974157049334423142898354388642388036590327563555274327568020180700122645473901540479913676783409342766763555180883195664801605839372286630717972923519334701154531980168620169123299356922403192751791793070551596288787348552997288065651970286),
  (25, 1253013342338732634865917638380353536122491814036358650519898887195665539674830735166437223143264018073379267566065169693616323812522097604498154115517454530827473107723408186274753841770724087960633062031050487005498122262043728269581553847780067331706378978678649690737441755851515970059781374140998878820759729872804493578823196172835186040739720689501971768876164265629970040501063002059228912704365616822666390496588065649376078098377739165784885446381331410949296983747319512226870309953586510905745600597541107133115135596259637267443482835995865760715529929126081626825034972936327160133710037494352074815783175910376039773618827248349992167576491369095797131498223461237054882955147133060801857715993895460680859131173512332608619237726286713435429165850296930053351985171509509550273197794233983295930730704974177476472137177015556623613695993693107460704403650368552174127589991560707197050828280189506314696197792823011563859224844100120130581519488486244384157962066974167140018716),
  (26, 71225562256741604577764385247766855179775792182474484122843642080378318705404054478915283149448442718117989191231638966065493367098161889117486345839862140725669695923636947229326428997110502220984532302227903926762912889332922547372479235024233465293626692225566881162276431260324669100315382714882098231371385843022181551238145185199936465820640062787673046436575774898186070942134790701585922801334937550033509438468858300517244862156630973184860951013627751683690894899086520801636769403327096298790083498150091460970636647344708586128053288189936317940034850775745188622577808695662737983454256532525485671016214358590753177962399692683719366238247406925326155724884416865065776916192103133455226655377767623219931164985223914549373769671296110272759345442166015851408293533618772570124894065798631367008856057040268800509587289758155968653146640005449495616818706844786089413223744424920332742985305866154811984723381565797060349883822808168907962728249709795423668945373366),
  (27, 4048704468956521201207828269603331544873060021386350179161788792065312844977373429112235677931064555998431682794014191476065512182353921225369864819177913700836466882926569452895729966548430082922580612729911077097023785957669733043785483631849812428164721735900393534977662924366351779799253035598786609135196718115263453866995472776576233731057076442293296533794988073292760813168046678446553573924969529686763362319019182708546509941015032446524945787096831018002268945181575165097793678440729976522214331991858366584984133713689453837037024725892155604637119937207094453649510629245202145033816059727135226156722794134199714411949402266209552358853998790120534952340076777680346512517147190697186401447911175236747288693884205329286480962752108428541631627384515506056065573922454150568464395866723316037698099837406383240080157694477358631175929994805622550398139707157084731464241009270413573122960746377610664172000014190730856586087060812700310773337646671976),
  (28, 230142203972520815182623907139903368765377537180617661031293936961521515341779231057002771077069641933032453539113600497561578332713106716788039694800881631001429177725104264760360022509555056042391959904870820827058184133742868939622524273536885881876783158526245275366913058653969516160444358979406536555825182296943208590789451635406307658005123155492884537454471460096826877655078458158559077101299949941151418361606251839468342974257133212348933597129444387393232568632792950334386401128489330790582378817813854411083603134744484697890383892147908110994042767598028502392725194906573673837613273958759552226239427081874703175927508724667898080377796785798882051512662288695830243935289012093872863974226870203980401243402103845728410726469717529839379042368736824017217846227911478674728592678720691754505596942293079897904774888141129939939178110136767163115187411559594793224376181468420168619674603694098255930184979162473913120888717741667906722),
  (29, 13082069697959514950447550469329108225643809486235662747690977139514047584144647718005829294558545935446571407914780166809213047412930945755990688599063198069042594950423350881030729767050789635185990386211802889821352899488310239327263631908913673775986305743472557615343308649128716533621420636530191163491575838233030060040928881074154768271291866056622242095640527855768304883388194534663800658411186345005914179882703791986499666213962958377394229322676034275939009320534038799023266017585380676661009253380929695349747667494598032682711250746824633671775552698912959283104843257690697126463204936026619039899809505951898762353457021940871600142695629135085997669396630285974872136017023331923145808538486191588229491845428445157259760071489536448612704659965220959061901317535816920433513956485733540366529786809221468557115065752191063194783546625271612680874009972178172768685080586992581084272068609281699882381479122965403061691426),
  (30, 743629567407396902492993744393124201544867985730642359822637509950825891800414394652183846946999547949790860907045280715079402819636183366810126278725374394812353952512657479077843718587859577564017307975734802870496929443124272400340466442055098569652858813212364885620406121752734892062416101710493374155906612840739743435331597599665358772613891804702589189228559676829353633653739045167100690200882151384571376558865603766600933308798619169181943225019625123407201439207564554488236487030456194782055582637156906528193377650571575738373184604209017110330357366951121379596838085725040206613982703552138554158444080748293325507116413587390664855302201514660574915205429593506749478902437148909878706328625219019057021648185367829999854312744935880917257464800637548541870036356771428062560165821274533733438232553591747716035246259808663005946778556596618371488091334359684661923424858102276590831331541159458814014775060979),
  (31, 42270446977420130138682096935163156191769529967282458063814232784285757804833246760391821621112714407774482248615031535057335237276912685434247480243662630233095225805337661260969282385977952433450883971530334001186982359463642774263716230624089494634339349273225530261038677608254084365308705270677670236858978844380757404640666982212755941225958156604894451745893773685137595926298998225789014229880590360088056719728547132852138979117804394072650514194418292400316029393607152580502258791536642932546962883601203120347292797985329108730235297621097713311938093715480576894248112719904887687134396504123151947411036032490030046837624557835588111639098645707258398750282407610662492344354995394028194973336703809139666348755448953068625401619081278337907151709444880250970486887308262477891783123041962120415790164728815540742979130614593579123365032193295149068261073678463791686494280545142629799162566689586384),
  (32, 2402796722971068569375012028510989022821009369140623338342620217206658583383685183911883406216970479805154482654360864163284943360674372197209293076620191995578763101396911068887293503506609365186414150430797121838792370423541500159883311802337260282589531315876770933132245182165097751596289599017249556530883799290493095932144284586954423799963828776349967697135042627889993332748019150288017760746669892560987008071012708074354975437854798664280565714342475000065102303718443651681635970662582710404654128014448729000214524680790200378743577255172851932027860820111510439456631599360836552001409984619464264952520491419275361052469391481288381154775425432478658524022088303031407896433233891084075025390395447876027471579002311409807397341488344936536243613066473210023472559733812541693252680777228315482901151863734627089796540328915873518587033701472091551885049084898813804873212582648583150667),
  (33, 136583180561221329831767663365041529619987236920941503418738433152080835008273719717629058221573955040932701345716444857503401144678853836308536135483120233151269252482331414108062603162728087521964775443779963202291149310868917164036890415123779137194874881281337532819420924975309944306689521853130006350675318986446489812587076618624133959654264120655935487506425539792376095169710684206091124769781540614769316410427866053494163056722868180885848227319352550611832892641836579872472279520595951198026141022239114407457487526126156751818107017098110565407250374051398756943821819499615222288807792329636204241129342585345496751798788234874220317813047157775725956497684936387673197937483897723046526935596975917723768017693950258367539041562238681374731196909031844893549622258464511778867217823721322121857033502055695550159827080260439358271849570118017392779604785517422349430255007),
  (34, 7763854941982875165636395613833060998557996124471941551447482263033682273105212045585918657569320375894943785267312526770149426322339754523712607322245289262313534236587396100507169374096070414564381703927436046927320450712893328047635487514740994879211648440180939179493914535630093741172545483842100472354293230321587191871633229916310716360258157295548811630837100847111735823117289310396095216959900903102753607357636535692434509690315299259638119589183438954962159321218716140759603449102411769665094247645717068489607194327363132862312770919879811660191767728352895708806594307784190261184533320699958309667039547870253507618749960307428109589526824504085680817449589468247736976562077239904868203061892359681570397723423080942461164882469220219968785737821378350083247624725694678440414055696040964188675056843170712513722259473494383486020636287664835633491173682367),
  (35, 441324058441686882226599414811577219015702901542223432411872310185213011272094948116427909642955022257805455027853015893137434564001736960319283714525527629025051182713207032322041491971508004017117724738877543980340786374250304109388905971783344448295545614665851370517311496293478611572285529055199076103366066395300731872654155917246838382382573311715730052114518340753986382423441487004891823514281561121838282342133624239076271304814696461330597137270320660409011791058774700871724095222385510487530190197226024225525462355485480951355120260077360113795876143725250057165474150919571986508963333546167334307023490066162674729513714230308959809459111712795759604043074436421399618376883142366399644734180826248993102324382396887886221643793849702275309748099534913179412525880350169021174503319793361315930664529380020857383041927222033140041297386452987201),
  (36, 25086368307352522732946875681339930623363608307398830698495675630125163665530575833396819100639448962386123584329483031361714584136378616694815020453320791433785142471220242005190442112706705530463166538702213528059745975397749140790262229744675121781685084821779774444923503795819136233392642285207277615392053090725154553186828672590094990925671125481132422124894557698835999289813010034490565994133652705185202742108599446241166971309544197919372175340200095914051227667854143999606259558440175070229768810331491295036389314154205779881582423202719206808147725721252965065715448361265433011558524541798817813742993163078093351939371570593610745026155212034266631365869928522165426985801955041296735541129913066564983004198129395744324838997659337156978752301659838724006420572482351908142866547265597289849767569826689805203805673072272237088280),
  (37, 1425994941391338826005430501103315385953670119499681203393247166680178205838875319011368623059720957961992757209911987465700041419516913759640318656540830001733021530936880595003824630152093137125073470696305180812245565414158883231167591801788326039382189084209345221832080812636100758561078822527588011652826283472938566784811023847486029302979914057355426922637293398380029750521923787541884865259906428230007352381572341669912777534072432468075607177555485628547895288439729562696596286137268364527352197632851207211987404671968979935186922851418686340159017040383730150492501375034331365551542360789068543712492994260866799522824795582085769153826840376588827784437379077072498721129532356680500146462156539070594509583131071006330132989468851637292773327417287534963957491597669692902893790309463849415617000175307117330303237401),
  (38, 81058427746901249179554184883233766979269041684101535076550087903807377974708022009700051913780553034143438094924476187412667594544297671725434989670067693721933979471537020060840440587076792390068559978789447814747607333979367651361803371047945236079055410085024119657196070684001035023237756220779318836859817265972948800207539478127141409780988911009087624847951976045747499382098196410238980021841010122775724417244900922320131849921565067541052275854253475429044502376605569562162064660198654848151464090529752588379285676446129894801452141735593628189484482182070854767575780852255140278294731744273912712287156865594368258470147790592232300095417046721403631044048218282626698755782921866958348249983907207574408761369672138699798686915007479862111334940333449021738134854952942507217447275176563277143027458540716),
  (39, 4607638160615650189103813823023402106813878258668724758794615348950138580602698653461860198705184816057194330762995161160953761881518043522046070260675361039485209145797001614303123948677511656914507510622880079992433328128491192010290170119784831745110716956618496150795345979376687392844964144851342515586772720864329410638446499510952241227785720724455662410087017435732431006332286754087238276810049479247678730415358573936324431141276016670674076515071527549914662790439606502796149251585640610249156293036943092553185274493673015313113732784786515500516646752608970022973898984337914009957184008437377910523992917276750157527422294437743416141576487343895685808399619515100925700450624692196619062085937840492936854199159195798319557969895893588018474489608527133940072188629656988605296821087903561377),
  (40, 261913905922918399318394553064502025950666749092120241971009326616134477524309355286610536876718516399318692194981119948860951005913082299346460232565923492955176308544025779059616294755273409971011205392578635837278018705574777036653069366086581320578807446440394159155477067760704152146791837916437344021792662727565488995677735262602159468511117535376964690027029250018158648126838605773915233189687074436979736317850610351406956396040176962145442436932390402694309983140947636861405398214929127933677315482988299137442694547696827082854589955481263227147304751665805243771705368952927346050263609950056700948993373389238092982803492465919323048925588416683809066749412421799780471830188767429862443538379915078321442452678454076272608882251932931860844630486677618230795933889589728445992461),
  (41, 14888081859846715776620530565679816047046799047400341008313337546049665293384655074453947740762402895559187765853785091898143435054924015011378073300302474590078890545557088618103096834788255476440281506289615881387249982343222256154274316089730169376044660656750458317431770199295171095503826601483635145412618816495561466164983532030347774480296026700681134783388712846942483826740834874565888085253745166774669515009081383055907066086473346699187941426253042976532359616133731053950349099596541961897922726346155720514198353854505957116199444802799000292625490942747165567819366059189763010512377149023661747714473497178549345925706384021669741117875421793027366079127033939568508351944343657448326000372927733646801540812017473575594580856162933385955964091896377967499076670689),
  (42, 846289473193264471809728238763444553970134566463931435482285084279377843664898084310490716046916968948589211128298527302986701902098776074265565500222613235276133704117994126269127135186894103376453416427703598202283639422936086470188056949578443824188899598905282726885652638584959776755472992932475626343867712153734041834405888420323314994445266176943308781986581155062537106629141099973443674636764384843121700322471484658743956449391869047582112775790276799049966250089387297955571836374785891753468977017722449874638920267415817615468065331936005057431832689479144103141264262573843027083662265196268536038937515383430150428108567392652892995224474884698106878840253107817304544991875966318252109038568895101277371851929531140499349221310632611098994954569326076),
  (43, 48105987002217288580239269251901791561188847848821492077734381170977135506342283651434326887406466716292509214936240595105441937940375072141311562384436361623598674935545374648834577471543268788834416045675396900267198205799220702867628584900063032830020780102222445306232702619346937946669957158037393574107041892628673806775664816032177027524514834667136457286576614577877575065422749096508071493737323784696154789124879312604060801322345482595675555561809836873039543846048342804639995850924129701453433384683324331630065871025782916381020575040771036166009282805714101134340983620110506394535050114433091798400474543746821789686823578656996527510085174968564595835821618135022552781366519439757585906120897040956343791577105410381521427571707600760700),
  (44, 2734508768879623436318938118569223636381414499329678851480274555056958860537991066134641578594622996905201785860767847401884974825657591223845758656536174613969329454851745668079023349430812225928174720349587560409881894913410043033848354802644567086315755704029992104058985947136112423356572525265632394061765600037470683181791461319931402018180880167833663743899167678995749358662128123165667093247418303718950272034915372932575051006056464864133282511886698862590485448004814409615125333319937000999629508335355799585626047794913241531271926002197904214873290425966139145560638901817641620884883533683989876739776117985033945210688187125325728576709171455643939101731344255020934012800561667953831079064536706978058928247553325427752153851),
  (45, 155438827327976891656302207057321063324560242297688935848343280386925406477188918537117477773939697096079827694027690506680129080090045546503788424191507977750991895780529470589443880580280467744701855484691890812722102816271432972579912112761101605161387774734140590655749417637353861300474110756893225426067211595996111392025153178600328046893176795420328680854401341858287525390550699095785393480434016412123458034782174230389014156325393768885950488816551127089685839049750181165438893785708942330708302266059956100983428730823866272042965204718119851210975244434993474875055452179669315017655785808163549055575698465029915050704245750055535951566582970204306861262295978362980098141205466599868312426551184622954877086287741),
  (46, 8835674369037001932628198065760958759515247169115863007865714302336380483051750532986118160689539825857527131008037628514564919447027793154563165910048381746889384418212186494565515310604925776368028552163140152446434765055571399793249658174182015755790924026971428635095398310273013167066322187921463155313522059188731001394131638159415938988391565101553705252085983272889095163790978554662016079323027178562024646181511700188159758023034770040484356407930048022798047915086416470137404281793498215469877796487316437131197721984770745213541160019700282922350882619208292586654496479559155479207224166551382601856594502548830875160424225261105581725111279190133537793659471891167120771088399268060539459342034203072),
  (47, 502249939076875871968934351671177794259804566599761017634234252815098243618862769209620078111671536240551582239279334118837421070056040727795514494007897027750538730347935825908423672383233492718560962170421812325637877138670114474442363033354461031472977146924553231057244011074549844552078934885099996914225758246805953231568758224234893435152258415743627539643644613079957137181084137136821100274624273512337034526069962005779542048308581336233870055688184319543412490124604213833938900756693067701399580058847083432203186783224652115508200146763528848659935122718177683751821047724374795800630981417747891382285169350873838079527284549548998345641564809205286166672294494220827273814221225204834341),
  (48, 28549603659762162349632851127761216176839102820381470885094714322752806971201537704110937631393854658230769828110131477321682556865655483750033141292122632911779720653993569104177909261037066499398010799823628703016043951503699387771099871150700818070672709153190051067377914139934608554360060224667756711306605316908858779825604553579628773944334367564304386366208202486612864011244178168792015483006650696458507275146285771131013116305375397445151367985575235513999099348019020035495969278783814441119088185459002367633507861694429633497738344034672058129232096844498503080264515208083132782766678390626634415965507348403478472399411161381899638322967682615306280251333181131164055286080),
  (49, 1622857079141918026700344121750345958437213927276245094907080461027408487734734177599360556962088518175208368353999701260004403415317454605940156523055149032869537276906852841219528694077757411870095635041245281735229443296990162086911151962613665307443360938911660289953928648253203146015224359928690858800634432090734187560307263548467558345126368097998248423283059759748245772980214975560410545898549727119652474612054774029732857402884190956947229085848269781402051830104984179287537653949338485043253392114835793109861627303104978340742569412899838791992053670845425019298031364828395290809833707658351527128087965186644379292223643745983920573872682727877290087227233638),
  (50, 92248744700891508426840580440872711189809588590619858615984893562393181567514044309027699282642552307016127823392981409720119669898449711673270535503606072408273482899245840196102270089539429921968721247373364204492177098416125624956707648579209279557914905419315320879223534996759554591980507149198948649416191619950366534441413180695890531374799073755410838485794112698186649262335875231165038898425720336208956489385830057620119556251913390408705501981448885180057539001823799734878989080430854518800852889859023747670521158445567907522605976385751760796076113181249972441878002548205039941194060781394768806812343778143208262992739047583360426456212437523793),
  (51, 5243734034416519786352670305454507296747669249192532482537950134109972939740717055714622988639493917476713095166815017288638937172877407708654138083726253975814701508786538614514984394316949976953965440361891390703847674064584342383956960743938998862450371379831158188829393361957289529261416844550631871043724221225928914552791348333417059462091519594632937296332708703775089748716379067440882692784883766256734341225056773116945202082831691516351489602240821889851741896073032102434186830197774766006625423935107815169388351866045610671410782102215583273722281502345968832190770758786506896659748677005147191126985428541630232952847594805553378300),
  (52, 298071770113012904991630324812746681388243203468421852593220940781860289220089558495750622378153361928205505732734335229024382605416080966326601416274325652834543589470617460748469549443560685708587444565068802056109319439835492971365835554074170889696175329252792536360230619798418807888385898415772031353465078589297933646484244302672606329954917431872357167058774770634620261978932653017606928635824665406937983270683569197726707274324595423528605480548300958110753741353150693096287122665603036126061176738143570617186783444815343047498681047111889112990181811020232509516948611904139328876517392417536380542541239871115986896071885),
  (53, 16943418479116468517510743641466131145321196724377264933606337580264396889338602164863063749465506988048483037953846308220378426511217876918934057333980307659161550203082510868201879482586240404372387131091819067909345349858646771035877308944615813839597798878666207996213994923392976716440722550099009612011002680914143452473177617056351681137858807892520843124510495951773324567667866671381049095350693464774105926449604344948187970851060560607966148242479393657987889610142305781860714149248873498904725079784200364864565733443580262744826355853485592791695253746273541730203892520072671615874534339406422693098315826428),
  (54, 963121833542372116739371883879023877473241368783036758350495891833384279429928253006329721665926194795170116696191626542375322470931207645141323230961094365379690777762216093815309806732336410062673478596595417426902650555202257099961650594908308051983471470355714733869555995792299191516011452479616420951366911710109569614339819929583795439394169878358668571139656872911495715078519699716094729537225710197819943732082047098698432557224024288986948973874924690225745105193124854198588532663114558371769616262830866545636120385637659787193002470652122075600161404198386918852310994998893604753573182071694456),
  (55, 54747137798038472552626210692723354752231521660123505532542054073073761835773866945988543685945731916403237543178202898394774610198391791520764648841583037141699217090666422461598354647344905902840235148472408480764885956577162753165158506558769003207764820802343121813135010911716887100062287872489862451639419486614700737907167155164787317295473661029754440951885869936569048306678854900591211264994844347714633694525057426297685924734689819469545200179939112405332037641526928564984862857641772992652837776480235825409422676829601083182975213580857913257746175738594208820450209870185340762308),
  (56, 3112014485284275483117324409518195963768876460512890474955610589383325386374931073325579789369581433610175593692620706542506102191889917183627397533463311134631204174772225614082462496183096176717170068908639174433793942588156162519939904244281282598251988468347459482916332006039582199093296299726054484549366338104485358882429539048403067896071476939325395372029074061515576976834690652243771917476786929980894082655490019425083157889874753402731255846236077689191801535750798296752251381310080994123515869332346522865707235566324238298289241156845031772217073516365525825804543192),
  (57, 176897542887915931437267113865583806033803497937980631072772752795506464495341846266440600027833901524833546974619134725168128534513550251232696048588682844812124944406912156577462905307460344419050842201573973304123903935081344724407238809518821975576966917778773247700629360853360676887246404646508528757864640390098008512458868012302203420312638098401960001568275566312124084257279978490321763816936876004664411275945108831462000579497445060113917524455608622996401325404320007445474141239433725624217877333881198244010273555752243680356228808068052616239144237686591),
  (58, 10055461125825555509036492501737285886201354969210027502094305903827770205673497590559883676588106240958058782031571080444462814323300221201843727392271097216174241014221097440481786457749839203186092560250488648798421090923700846383477601612543549265251498532888869801654870351763104046988594007148489515834838314856871160875254628159368777840578139272342091491258204648326962207011906021079367672351162792941708808235074791208703781454571019001024185557734943006493224143044233812433905947604894308477854609385749141383119997827087720891301400728165184249),
  (59, 571929914444708285120332751110223176509987215393980808106797842721936475716037568874409491939621283787397344092494853391064641408250237502224076794196559655316548929884452014011623825152045878213979481281979368712605591177083084036840100632388205855466467489943625638298973889175513387773679961979710463048841154628677658317740666509017205241180971164488370004964832130791385363953203634458190847965632197067428132519589171887827556838104203215899370714315405713026737135753278094625920554079267821941776467114844430134425433866886915778654906),
  (60, 32492084205695640335997774703924336120756427117987094544085869598585032205223635356566836584323975854926055563742954240866101701017063498092437033026545722532703239411017909919283000306158651193969469572827071590759245195403368917242489004092014134228626785462245788497359647487141829506824042016546549426762150279705668781822220600670878638148877214744068736677276366288134169422729398842816605009490119989623931467165176937526149305677672926715695236601949139542607708551195292764168619760408107348566484482951935055240498363598),
  (61, 1846900618161705146919983598006960707097266880008248723671483783825402726508204872686713792234854112549268844375332478212153886708769582207108893244639976827992975888797263023458763900770561748583995787896329273677303898542353722671239840195581137467702502530802081104456734592127738545391181725576861311752045770733368676717352760570355648748667653433604014657184278050084202545477184784762664236309147167862593764330063672297644697965607934761874616826520004625776566960662266853546846456603335760555873580219163062),
  (62, 104980332261173532198865711898635731462864278203524007373958053821231296174694184770016442188066644813512627563774860485716601754486550454860759088142496401488494816364543670316973588565928706157819036523287249947159299210632981786524081490996260083536442902001249935261588383668005194308494925932725364404486368194679441295687423020721465744722572916660707815870218268279728850574468034583202593463017758813358676914784617963368136575104856243701403762668026658409968784570181749386076851812691533734232),
  (63, 5967657714094459262429210323603575746063418109814275907565702369068131626950571255534125242413192922430961640552818552167569171217899564695215243474356577442899237979623119633151260538714552848433170822495106558326509684134962599869658532009567963801993990511032432737184978304925010477641526353654734735444083329844599506543614913492203762142296203157646843192594529553582965883384618684858375976304283561329724796761613661933456101016483805350485039137686738284265571439177462274085777120),
  (64, 339221251032733996031151339706835925424035554985992248260874537155372104279776522798373902864586848350999610033039929767456637381580370787925175507903630710513139395531114244944127912540457823182857357164435247358872567515202329211123641747318827784445993452061648496330519745502760869780970788195606146540340765693540798410305952976481690019819440494799606394603327543164497095085030327982569203016696122466737792522723836966580053684358685395831483131723263043741359298762948),
  (65, 19282499612666523329348556650794002068438081383490944260101420720406691455400554320434783730240757412285952347804685588999759557708405376142455854639294202031025368361512633827379256036706602012920001665811642946593049986735653666133744977142616158501299051076002639156734551834465509675464215974532235760323971104993708804426467258740353328773885259867372253604891668988510350374256915865370986737195734199027208825671653166326607100427905181494282246007313769976),
  (66, 1096083456006185727083416135200287486228353019985641984796238653339614364969815596531008317897743490394987672407497211327528120119618803343200747494384562327820320166428453500785583925954234437336374091189049464662170381499083361092483453603446081731559558378672479782910445236106401923001469722629672439746154063663746471124526693507778936535863363637601596492291001584597104655429226390589382162776688576860088074320884953875221009823618820782824428),
  (67, 62305111409541510281014254349399452552608672526305033998551254985819405832640835629916074442618219177348066565969807461448503158100700130047650198296169233348497824015910317813269939153300537446115165182475709389409012126496689423099085420042711106102207708589441963180982737269758076948302164237933439466309325938597588948060507491573242012838250715080548221245741196482262409901525890499566440164316311151099470913152005324706464031470),
  (68, 3541641086242244536373518346600878950075720672807525145987717654691111387572859400095885548356192558715116480128148067719114619112384857212405861258776427036831201973822300862531533091751323623492907589868559718050413842828982111934906781584151602403738319374491519574679324946565359096776229484987168057777652344748921043303864094145062629820554116516574951467129355136254213703383898429845602970967951746180753554137261284),
  (69, 201318679167111610403550863659024007171934702396341544300086669237435884296727732620935864560148663913027252102267527117446229897392663975247560979266613353748099020464638622182145825274998205697450119478140328891794257749066208850478040129011396255224011014825664132378066998432291186391730562317782876055057773073579139896240968896783175098431951345510031802062681348880614073744691648517403471802307163850180),
  (70, 11443582952430586993130801200692490054430274094126368849172935155445258409381909596763010680715380186427876313675036026600220471535319565997849033661117920482561168624825301352628360767381837843141847679198655318495351425456029615839398425495101074943160003313633367416144299557420342235929038122984414937351639424866864232001879738286352978472304723354891424764240881042403869589784817029062544746),
  (71, 650509345395207729352766469093126848389031555381880091563543677660278717436735979786092920357583585942691732032826280646849331359535304608143871030660982785085744655914155856228598494785811474584798587520585262251299898410922654876787392177902168456369236376765755887193760720111270654906037849944522381089000507655219997325499499060493020324583450836213680458395485069905328937896067),
  (72, 36977026044279426556574172568077699548144593917143445429467794084380285263380623857113910917817354656061628506301957092010772977436977673484810229206235521381435165221319180203519724963882966472162494354675031339186931232184360346796918615133023918268361441451998845851889177320744761351179863581980742469554624607182356264000698752902941608509037576367947468643309991886),
  (73, 2101885152249979132535284233551992349842445914757855739651588526109321511127902288920139551357059513970995920905477606436178483834904852606413772176005588717885961178087266259786399279859254183533845035923524278290168616268701171348686510254290318796721152897240681269749161497490237833325204287698945366670485913308665631947659034418776531129323062202828951),
  (74, 119480520754921578082963068368107780271054134509834458947196162450398065860324698832591782648893331261738084515362998187208732367282158406179141591174971880135247879368304370439646636574824960011922872274846127438006874024913307010466907540123596920015129432077375791500744964898856462654450984179416257337851790974393688876507988080802730234655),
  (75, 6792037413290170152543227598671494735848172059397043461788142794299415886309010122950776193316631174509626541623201439400256370445107057918458203326512075510607158497549320293921264218529896980415412324509322694886190958835599545738985341647304397767367383371523566913781536837392163802746912476753162325765526035367950567193791201),
  (76, 386059816037134057053440487320219636047927042896183311505909677048751046482073987002014619929931988388360912276241706966928446655014366276032373964886567926918156324950238389175858496395818320714929858328094242565212233182747432014653690373458579997482508966650552336014981119024297340412115557636279356600682836804106),
  (77, 21967064843482208599506316144371177604601951700610989483568382145586576487619850996457256790668290658083664929353047195194322305759028224011963018648028057671717305129257194669510288553863701171568513304403697295811167878990925276796986405257938366620416029065332186333140771166252111829626025938889661366),
  (78, 1247402108114081341180334947995722101601889751231588394216154107212684222548616689993669570451465435743878027789431076957975608502937537830489476380901655355264947583524878236796109374994666975369312343674141718876284976463178274971843441293481598727357703692768012248898668973220487479440057),
  (79, 70772763341173455698315283163408218202680896770893256766803221675462022876669748589989310589935107496679038113650202887228021286248405144053442969579702159403853991584745897657189040683254425895057336256076843104904788206023433168005644726198553624885918875137331479588613017580),
  (80, 4030512461934796234361492389279072250041150216698510285318861543098491055373800001968484957441949223079836735061273761637850003703793582867954551196424815521555851098559106501442067554482161542256853284010893648636686765867914193818958763211547763581494118495908330),
  (81, 229111147640893529936420175882683459310172804056313003237501090522759629858524608720780295330965748698137536992456628320875002236919664763088741352552748947622795109339521531429591819954464752685915670460678195971568029374724717483610655201961750584486),
  (82, 13023489531454780513259107250106951048412964884616427786613829606583885886499907073191979328704459017063388587146047258050958580465922150941095175191182413116820063283556410528455305468949339744833244301654777319591471196656769010153231342),
  (83, 740298410722197508164107227403285115384307304386770792201745017178824305590798880712801224325410068327873278331313452282407306915967111494750837659030820844529344648995644546951339969655774833195300029101028989343025833818272),
  (84, 42081092206351213127817968468520615187700167062316723646309900011318398647998347346972676898376809765251526930104392645264723053608968011491342480607511670689602524598873401787578965988028212221249106206912950168),
  (85, 2392033578679686685936415297707270630082466945860552562702033669309834285031050197126583043769255957700235080603428663959296394496492848253692628282717760170519833709711980601507342917090863072681810),
  (86, 135971526603593389783592928923226716829212737920111488839139834735731546424869153919739017090692005394453964801350601945779133937323503365277104737065989102242397290152822859766167717492),
  (87, 7729076282504297348659645604701443593167021093908919558804932568594297480481189048850424643421335275731293183819044661724875619074121584478587058886759487894873373968187475),
  (88, 439345831392330582640376187303374321386140163539653572987752043573876215776046886218311816501870680982836538668919443136718532773586365956510005859289460528117),
  (89, 24973989522383408208110611036367218804392671938103002768970137673255725685844253476950946993652464963773541904574913845650098983382885336037794115),
  (90, 1419604004343360015698705488780052528476872499790735705746085835231310227952328133469333079719480164578323172678866824387270647284585),
  (91, 80695083818543365364642906886225360997259590848736159583583975819675398349694897979596399936072876008651478186742363713),
  (92, 4587002423381125757257199894337497056489188025476333722847337183278967196584134881637336028049686562179471),
  (93, 260752389882972743165514384767592184227780369261499774602179575934002785903645379022709742442),
  (94, 14821466435616765065396841701589148272243114214422950656559422854710594703425058),
  (95, 842859983666942383471439270491026954023313211441824609311186852272),
  (96, 47893697565176390628815710174170769172191072100384811),
  (97, 2716700523883310485740944485261083494628),
  (98, 154703742605261344772241516),
  (99, 8810214219598)], [
  ]⟩

theorem ssfsLow1_ok : ssfsPlate.lowOk (4024160109 / 200000000) 58820166900000000 ⟨148720463433438400, 143454398810763600, 750312860339781900, 574330176000000, 1292242896000000, 587365483125254400, -789005897479007307, 0, 0⟩ ssfsLow1 0 = true := by decide +kernel

def ssfsVec1 : List ℕ := [
  10616500280831254745427680515152975586448408301957703146246049339866059415142524196236585783325054648937370130233755175517661386304249129483614635643923959748553678852294983106166034779134538093770505368142488940504125984122669470631385371648351350480577991087024066726183025634739494113932887872747985008211398835272994626996310350881588210847057820043058919270430693417443212048883791610493340411770888960864929171125049510430841811654096912240045722315388124543077357159268697238966518762755693028662633959971400408699070046716714027829343020041170200234122679478567021295555157377601299572590486481085752834103641772848425790411289266622099871053766352127829321031552021655034202090031275621703920205232940507794351001660861236378396758951611388129009915367795596483020406880685966833706274636408030373601861468987753442873044253049442515988789489433015461093801265249364563109052228028378875680418278842000823000694532220002624309251227377327735361269313398949398585640002845694346734407678382938188017626807004970492383859507654398589060187566918292700141123374052530489052354959365677225216474023617244812369000554143239558309984263883758231969485567073714349083927427818220412631409266022348518005482003531252664833526996886752622613246043490786353347638636]

theorem ssfsHigh1_ok : ssfsPlate.highOk (4024160111 / 200000000) 58820166900000000 ⟨148720463433438400, 143454398810763600, 750312860339781900, 574330176000000, 1292242896000000, 587365483125254400, -789005897871141753, 0, 0⟩ 383 42 0 ssfsVec1 = true := by
  decide +kernel

def ssfsLow2 : Cert := ⟨337, 277, 47, 2 ^ 230, 17904965646482762122613816000767803074579921626083345438491575431297060000000000000000, 3803914016587586466334906071841941075438149786560398012368955388324269000, [
  (0, 34669663386562192265327500402395376692418388185369640173654314494630377755438449245663265128496580459707882958547672786817146104624478981125063921624868984002450749436694816517893809970947749059310716733070364025607555444020472197606088779068887563066245764460154940342501004271177425888279289236609430131110690738079670156012500993325385974279921597558920462663770247536740354476137984325125329962481517771225281565002167543000893967550982065513748402654560161212054468227854099130538331197716904593560350890317337852013886001117389718939621019787057691497094720213064740925847521917839914881934758344180561596519440164524080698291321158579249937088327999525154885540728031481522170746446451672282538196945184569122706224319345632560634043006976052286664742048248328482798782725480639564683473841468349160566690616818418349885416376838851634837766501417237285940987110042522649723727180911615192166466198433160934941931400572769437464151439185444548730741987167611406375028813821388338463992363686935982110131906220661229675503123789308056260940188419357719199763947858709555089959011141268603687858674835557877549453033557499630047042192772371754837651093175689819678586389283168481833780806628967369903471805381018419864181531057478191503193651266524982574832868672384167825747893503122041442465950220344975931373188139369065264113617484813850631409810792214090530405850078384483063439337568433830565439958374492),
  (1, 246342774710604838657086247766600237310010491362267627112555948178411492700949189703168982812162943443885709495646694696198028934765486249408284937000767440299958525691343683865115665102756275571929147850271510625582113563197026200655997556729595553732609657528744313759011811364517645947525934730539645743381856613042725473617106354356756887536045765360429396060649694116554544117168251838066492342124133002532325529855109192353118186581036759535636343469624179360817743815467192063537319192620556176755935317111248299578125772403662187599560114518238548409921296631316958871022141386429731588323696940430069874801130098005304657217509509756922306370657932562583721209071767490636164509593682774990555682611979733486380342828717616501913171945002207023185387124765011922735002346662721156473821157028834315574787836346610894777638197803399136356818466378031599579960230075293341100683154689040347597126694248263354867112782970325633665643462001777766091454739957162910843767613983622819629174609655908166035389767362840696985448592456855660363019540980966164708476645666245690514786766204653226274716525826914379667699613011704116634842952414978141155228317162168593281310660205193211187627609564400058357089255522264121756487136028729997184830338367572387464771835286324776731257468019160816244317328867164943274522563580006498744434845691846663038544337489359397093116462649025580196589617716287980),
  (2, 1750370690777066814635161056532747223261899329061633674031072570801027075355126822223312540911168742197808894002222620169768582793916506696224424631544369501447970678989800113395148875320539453661095439896955096592146705510292052703977141946135556566511138863845824564029894525987357199096264765746727077750002653559344299896872200431978869599950364504122229839233443532203503394289045630594349483737661691959013398170529719795972441597410826293219359326671474786899681972544097081559338427818761795937624698452772861554779718359235532634438847917788711857359897493390921097637976957156587237552338693519424208570808835552078728416707111881148898795389141306298423400140061362381833052900609520915714125561410692871356643535051178791363074142367686020898575237097607327198552974138893017533598066275783690130676988281529045142959148606083556659665562401036832240397585104985007370368330405709628802966947604142074155416519098904775473792067766904882194792386199829235339726294781905254737052005972214375850494372341884835569131739957122857927781826058080642777894547076515000834118220625917554206744954272254397026587835022480708778906660009714009802226677281303098547493957404942850393507393602589978965401608743658750782520464142348169819617541115017024356285669568147801072777236285692000345157289744106915272060500315899917166659131874914369347060537600941724842841028878146333777785),
  (3, 12437131792125999984154461887173274881247482125840601147174040412962081348506204314505625114633580397499797540985545879547948668630524301569392076338679299820036507802147112972194117703358604214953402058696132725155490745947089118055097724559310335043412726883615943020447887460418708340030953010598499011202253427048296643664762482589886952153974986768957470803475524606758325299453189255564059605706265861578443158189275338581564813908249233739269965384458647615062400585096858798521477395199877612056712180951969884159127406045723188068065342403348666469073335440514132168665501546447897120770056228004057532254865626365299153235468739937614069921444276233773735857183388305120174457208810087244393987746689295445880737413038541212477616294050805045278633171984634064615124590017446746556262642876428074816863607945861277155432603485051376914351135737336828827890808468595440333309388984351521945659059149862085453163483206713243566098202135319858855122644905115627571987226876533084913506110890396051612678339281782012161512896353990727784452683250852182524662716514110823037564469573028392952712135981411646624516939750944739031698744783138175112974526883209075728346802526622698608858836310080384836781740525068429162382444948164596154950113251170790855077606146941114413421390695508752251971329330847102327202197470641093358268550984254318072669161695125098631772495),
  (4, 88371136485952932347355271803348073899274558441680882898261341117166617590248276153380219951513132064816593288147803120962841550875003784440751875342728677875349662596761802096057087031018661302504516977153112985468507833640684748713375349771038808485893226310461602005871307360707111102059990944059475313406179461409561413764207003726168763592336533667972068749577046829294615490280805392999899949605693582058966085208990352816986137678709149481879569457766645334384117240613533941667357114513591444841510345920608643965852601682368013448671158901437585106423348118305263663233228983234698609850106389492573603726068403938950273137290519253279424372777232161620749361423580006278541780805069853952020456844816210302817712327410167933496214267278083983165893769321892578408396542186927270759566866566020479786402829685754623897340656738323249008248066502209825492390881349017639405153652537285469743357790929567742962392081467888764501096916127158642774057290373273436116630607893011308927175317842339726040466702312239540372791902571631466718459642939436088779547147870569034441954678672699212597339696308882913102001660835315941799124800523614603723510198426897483128857980697087497739305781939721195137924217057734880421652667455977107840768815615658898742444077731800053504422047953759985975352572132251010603242220084758589441695738990918771688464613842),
  (5, 627914690809394641706413691161563469725590243520177664931073112922467188286007484669471028738340208029918242012003281269623992198493843625327942254003613241056315903635864247657927125692923888115358071609561034518669022804170409817642337118467161998200916510698780209643238408208598759660964927409610485305433916046390935886938736350902440389097604831527668008682517649394989556509456846682713731343134872554690425737072246283209283674477747610635912869467306760130169761816673995164965426334093512639950738205717646711140674494199940790512191626676675727137198203475053747652803289722535559691657398328837264366510475130955553840883597069602028072780349288304762717098010288649001178684191394740606132331332570929091210104890493691900478044628617702983858344148093881863051633760491825176546489242949835836055637282047818752894545451701165627422892743307263458828470265202595030238734242929747296513706765505743368393353986515550310348185976498090551379719259057531453779247491414992941945491857860606024052392526861222797347035713666299236278782228768117159355999902702991867333259999208930469650568501263464795118714569077438625415264012727188033722865073345009387823543531123138608281887927169424137168783266818453615359772396255751246918364054890965159910069819292110279705814928400373204269084093673772208290657389280893882143076561417834),
  (6, 4461602222316964071983398272145804639033552900534354010036398959096509810220379489068651939060695238339210249090470828286711702270908039885709208892629189195231417463545892907722635609179052027194803625368098721879631705218775366877471625324172135527281963238388171199239423179082916710915022988117796142690105594447011046424663049975235669204896491010731164072011601560685785998101998530659237094872609757025540793183893151404654141014683441304549627744345127392040904031098005000783578498296224251395222175108399227378722035514683323403640812089110076383231562468927649503856590652798716366251958581765401889535754727656121183570944724450880158075420095664886647988775355756489693019560153756395200764260845549001706111729206043453414891580546129835125653133059316589215735186486359617595604035878707058215082982975116296721428529054977389983681332900569885530875099319625761484902282434016115708101445815171188337330850812112134638352214843236267530718586351278849067816860312981007691096936778079537820846298145607711644880529263777342629546548741998125561024386494616378264300340582251146039998143523660336476208164553692397850388981332290875152752867479906077795974222069049477813478562697950447045857517015761961393962975697951917140599660761307534567433155532074075556169570116961987353878128054995796771925555563334154317),
  (7, 31701590489183933164002979085292655505237780193692709024290758960898192884626691851415307737500627095479801427140931426858141019436112288102111166097038239670653243238689243348312251704123246548901689068079058958966481009266037521591347451845404571161935343301127706627788877186075465424887646710387701282549851702868115007166907941234163685605730880658245062394036726698318829725734273940368787506560680446496366381981322852338260961612755038292668227361218426262605469708997277787415418810604619613865948674023939727508231242604603726448775716075395090866778999620099661293434850812330242840459711976192848151638927217791690788360596335543140998834655479856239531620964829621808047685698333996460667395660697919700880483395849973410238616098870339600979648711435112183717314449753695934640117239407218685573075093102745194511443266795397474454180941521956267826780778026324140520132652932563623609791996824270681129824416667805030402455271531032810670750322356598874350515590689642951449529573321313901633142649010412164022701132121804484020122097092127984780942621948450809432305616653868536070916742174192500786551625474954986668733654459626724392335734433554443326478618404887387964868254359622282879531910099812653830533643998375495412969653278282173259499149489061011497696036162916748389569253001305868267559),
  (8, 225253348341311246116468532003499486686150685336237086322929703161865307303025230492022240477539481283653560567624133834778287259501848907411275512537020610743216306566739759242871766864433805075365505774637426938375318409163851746885796314868906674145130519317005816476329619674142248379373805895125047582297831114823473998284562668983876180648219117110628625914683381770525611464759326347386172304875217627606018145214763924770538707159975603592849986904392989323871178685257456528606878787337708438522896885609195441295856527229552233172958605476086424329800306288120816351998329265036909779300339421304629544579738683477303621058147742747727110781157582321784424684279824129827249199869251930222931568923446928001537266363121973122128715969921706666966490968214454674683293964781885729281082715327717293912963877657270006607007914896643445594987553725782395204556254239955120784373079515085111909779937938987475574444069155995816934807140909561837040904386209405446114460118610357882725506449611251008532929497278613070392914563913011058064963470959993629698851051364573240782308605234086967880352132944833372610048504256763774946416372274536404279869820170973315278640643633492584420416144519221239809571927324367655092855941801567044162737930949247072897044440150586007152606516158999350969275381),
  (9, 1600521303695581182441774586802548346654977857896803686251485765707978113868487686007811804500973822676221618801978427633423773815270146386703444581452475156002369499192172236225699661741452272307307457340055280467855644040926039794228927876496736789031702828969978584091673440499695399301343834998400438663439526271370798710924387763963949316244282326967148775852455334163229494931666987990195936487161109478028283033036950485557273042015838792804237088164013780356214667029266406479447078144402593644439673146428849404181463402524690790860397029797821868747266536995502455736777303780773834063642099357981366301827073771031153144076653200124606158386161887451909602132942777732754546548969287217564608337300415485426733438459687240582069051637927524330349378955792083980618417361534539057771983404562546144544492035758626506979018711808435855524338217930176320368978853349554753723980975496925884016046048240939562256776712735317600689044514728939123354607856708258542355658764070722604300837249610416959461546783470651750005276210588846696518442674648110299183782570725269170116328793125037392380767938588344128774249488251499102990014414625008599885791662045204017317315851657844284275713999619257856092144563748532369825261080336222936829628887639718337424461744540027504276023492148),
  (10, 11372387857742530072770082338562166325434415087580574796833218938096266549426926016743967600339053631131936958904067398791843220660494071933632065912204826882548746233683334531335830722903068952864014695690723739011711729483644063733524254621713226567351301759403801550361889756338574091693894134954209589186175448521830994160156962807343777180934941722112382183593396847497211642953190697963740723005260144358371413999032674493311353787170366884232190357806541642538727019537055149850289168731953980222888269240380348982426678035668603663152258347694582421310938732652189858505655191640037306025832331935890743915908835951514786797273519766754012770225884415897201186619936071233611977963649145889260506655422005727023590601305382796310447726359885072321659525829092920572091337096239002317329135398075648771070980606956555620470501821329559618177949451767466660110024817035660780612972619897151552480028780153866186031841746910469438258917823656264987945981406283191236483835387837026303415154660224203945675369592184673687721346538660898771170977538896758736363244490977441323916731632425761551733576822901675957309751240843549241306872429101434088553337565739236492895589921181546598234078568407896328311503774623929572589033676461770650693343053065351648067126437266322),
  (11, 80805675805288058647291441310284351937194509539934683697915648717245733326639274767994073355279309396056661404955578748537892703796473582850859118524555630896767968067984615569617551478482533263691678702356934646389505432849675057172840498319574135937063080036004323096179192739279358755029066871201856110421186568823931018504322489706250143149529084840063806388801855841712057014286465691548185336839108872669683765317219524785460098079571344830227704911096294983929419120339315075429316860610270329318923065687422949431786067208814700519822157987751783817764884667398314583178304572963668352573337511925524982662400467729600612806254410033422397286047849294295521808804450885727528735038261197137076605149214083577855289929427970230694177180348213083578776595576512210605548229206067562789082501285016245211909259939123512093100394712921161928879719422756812120543434227711441025074961812292602278391374592517920798897805797682504777810192120279707634132627885934427213669812037964879714162601474816848566398860598356831702977735657999645150496391662734962082653928143566816316791492068387417298506625527922453969865733381847205254866589669546507110936621198842178046627827971854316793848348386666213688488435210458239275669061546593761251140592584288405603),
  (12, 574158859515882377683799016866666872796201857029467304819845527804824817053090626607212730988035192230143573887334573356720037322229990853336621030608615679460616913088460369815268409149983022563744118219762296581562402988576560515337008063000046614416927594237595385473500933164826256540354700923139467711609409275185727007148711766037347410833641691683934010782059982263912647615253086222630068815621671693430941850116112930160021961291464367348728903033262966353791382157422104298660235479501466285511601646197595706255510044251888962117937710175293015952924450339091824211086446538422481502763613471739905576680904314629576975583521426317285609511768783765275999914709655451028077513486625389087364661179531302830467095259805592217719060731746474326254139750459640250290890838516040858993713423880253800364492984799270256742017413343900096648331164959949599018722962023812604156314235136860724420301427915160681829490835661713678635107498200210410796711873993241839128938644031530798480924218545574808482674982693186942577961327147379975587878468639509319736462289209214871421605050272352224485468942362823925928175400737982228169132457342738309381425433488397956278865432289006287699915856451942457017459465198539426555332839783059101691189),
  (13, 4079644068021025595316334766352093385007290194365868198494924724406992455922991486642281251559671702905419762461646119195538667117985951046689453678112798450110735432166645589886311562972148342329426487934606153860452202432937780744167130041051935733388057450650275292446651502092006643738449107280985396654133260398481978053831598230344052932633614461736542190748899085127471524016501318408559464926703668829411177830756092722992981635439220402795961627819513492955474591338960824408606928153044717223175861537246104797061397071433682734518277297962850748266155796665780117071600580402590067933888108946296991095753266437375958175276462313832059682028361653544392681689153864093312505150861324230619522631226587675300528675394154311019949942180938999103410555493506156592758384224293041864755473178102830716769972597157498232676762580994346813074326057879417303661060877267673571847999897849149670406989415613504220455342066411934794982551965614037474937624214227802615959133859517500850365003340770068426005247271664983249486116046898302456982959586550878708448356193919273159203061159637751707783429044860904447219081671694149226199474978506865519220054979363303141885439192644875289742734148666181932233069130456348792742150865),
  (14, 28987614570183410947114081537293520937958332351810577637078008457664039496659911167810318018142861838882223097646651546945535253648515342060242294820522734641187063719758966088934503475736739724191291896664686665271209749272676728675773910042992660579969340623123851425599064950736939045670142102439688972559193864580731722183167013782037380133107378105382639269512272852829408550234169044019419618791507671582981984515882163353190939757671670828957221641039225245970372551588613844544260924263544453676363379623885060546086054369318129772701793637041741472811709362083525675317492277721455347440870825842491254050237871182162463313888099534484179316285489665498693695437276397003170360545967451602743787802882831596335646384723208655078129003852345755403290955425716157473505152185711188780520060445756938854277964176034231714247469814929391498221794346204091044475265983911254478831580207067223762433245292169527846892320263844116349501696779659407848967409157972232254906318596694724208188519302275409380185168559169729499863567736560226309691246512803980119153115563319618745884264300039974449381879013692942922046723333873385591913630443794425683605440936603669801164092596448152600481027799523121524898605220024),
  (15, 205969389598589249892839826872946963229875493188597702142329853579202414794593876955089461039998364606998086962112211695591136404853290249538325588373479452091655449139667056643751373431443280235764609274768056858587072651870199703903736596925529276658769468696063945319530315007979795867253231734684989528395526209059345151221246836357999587280831822200359096485725376615769478969956243891332578111128962710907292770995923968300285735477084666326875037905566055952206546793641697542091107456459935530414832787375590772434656214332710700166738887586261520427908610594990741919926659234873427365687082815334453737415950386399238074036575749875137191092735873545348042550437087002994079593139800936161092289523915188641559638167487634247311739017461566153536921570594791377145533964039509617275861098980268942416852211396081200132497703479761715551346767968566725385950501890388785558866974011568287171987912868257851231833767361679940230163974316394045439719653945406833568638871377795242315699231375512420339348970774623660581403558947017781280430122400149230031095405962602927186512361715494795754732668907955450022193115783442473207193563303502768286571535322052222801823808086831719160884361196525025),
  (16, 1463500535682174493187577457746048907516189442969229117449383243755228364369457014733290680254360951672428686307811651806911376923786345198672023897932253185729767462519518391567680834321187137683589556364956861442424675605462707498858789778694021086146445920945913764447833931823731239132378772992858536355921758282775364684230758031670599922583185091984190497932049770840523033279227087154946953359503922102613967721418077524303550366489320124024761461385081331694293475392012443093267914547030706251115057977419720397605842747141271262012042720534070505334391306143017545915677581025403304587905792114918896863840215240151007803689253606213085354967961548289281296286246344453465671731725261660682182968876823336296178543848515580575201988312280025844534626212018273384769159441033935152800794014141465981470252805445378065671924096312310520252134456027445710785996849726529519705235080739574838176480347166260228501946259164363175372694645688505279370600569609560685722531820846831196043232643853154445635148410337012175172380901460600072253235898852982670736566854770915965105030668629415468736409609294232890378091136487477075094401721987754683355390569504055326457945072008237618564),
  (17, 10398796744099843843312509205717112390602980503893277018651351204009422076247389069633249882413628753479392933458346256741028667270964183791765616424038719701638615908626951705779353715690553348775643695486438956976338061695463411292548966167697277524245546077753749723895986879966934131543622687423191631694967987602773382032985657131088662338985752073572592801516658339408348797451164774827214487443520239917559107243046060454156052568575646937948056917964921797809639581716660372869174088523397488726744324850357566142903026917202636143261956059835101136970698175618047272220856052752272258227765476635981699717660139429210108565973485091036893930997570261833311713669283633904072004537473742444032447384838909318436100059282137740475454275861986866969240800607874944370769737042436455454642040012026855800357117439888699661694765374803142591629897080768893254161677182006263025528754265227094167154727254249493631457714281462819071731641553673032116186581964148909487324830185463553761409614551303489171530926832867790190720201495666032506070513878698171043678343289635753254209331446395692300869505795923592021468901278278739777665946192156524588875009130062245697959356),
  (18, 73887894871659254955265149119136313449040049078272410686816948583622081890496627577380257352971006290694142134251412101878176269466618473794598692766409067898617143569671757344770815637611006553149790238204152835982989860583683521016293906973088806010436690849616175340854172055116666724415216481836011162618865525513536499243154087661984187928999455868916934326675009935667669670272535515376629266340040771925043636831612215158796540529183260906588932525720338584195994855189244282563562755071509248456704839899296467740743875819615431894771489864119152805445396981033312199827161328062976861411650254898116034726259761998167024795578545817705421023335825857372972178648310633118468985244564398349183121985727159945077041709563589495839489161544227038656603256577103946768134628567825915361384279785150382301950273538180045611533962282491953521876236061438089659125153985784310318711854015326705292709964033677514646102372752543778961193072065941873998826788671620979001085635817236558330793619962261358751123068342684963796335364624176799152463738129915278449474193059960125533260178263977193554628676900664704700165007335371697462465502763156539598754220138),
  (19, 525005069616634436295506909567168303347557760775092182021360177540871077116666950085603512498060796720936182667937061565610976781688765937833797840755842883443571221630973563384051883230164083849088216298669016424462013934143661961897278601685349247427199222817616732570663538598726257797168232230980076484123947239903021251036194701615090195843506685944520856853914279321835772207260850049924428518875935283723103991910604492077284779877497318172580760570010933206118656713411190817703895981416555463149624496255096814496024229475832469627400813937725866408010698459879627821854983310429398564982404596639458245176928607267876320678164932402790739820305772576598401755950856956227556258057107861279822161182566141880382141188889720909209105019972382118630123803293189150776009760088091323572436929001736306762189622252019596374604636596341233177844350683593432160512713658823828762080140827644983994937225261571553040779746749022415297734998017114504665861005558612550064219875796388614157721980766914691384871051081633540432188620805121862607053719931335247285875539222617119329060414161092900010360763060171734445883401352408210729346865913007),
  (20, 3730385384527633580333271774944535126787860132654103791934932993784884535272478101364860569089663412095654192114808404337681637871241816549318962992405041719855383562260707264296007228456325826038745777117021449514411729351970346072710724501491962260247937807153163689432547215021672150789612953024151706332980508326426616222550296243444410096940358393654084107149609298841163446895385923485930405791894066955416787826865371168872041862975313553824230814442725392005473144937440675793471387974347635722659216382697283272620110983500959617137094096757232056907515174229865178203795579858707593381113440517753287589746339439647491905826510165443238808445940751020043037810312110963296254495084064313987699599774991054121047273451061050264014636616565162582725205383676423337784465035432530288220477047228683366637514448814706789518791154185744945813416326779443088206636213338444314806575041672016337061720659532939682783473133625529149427634544912247132746080813060893364495577922980654257670328604950158758462293243475422051018749980160747360937642157280335076095856159003166940988196681822728439654731820017444871906643477388177478),
  (21, 26505982365659391379739757340875198535832247775719438500467271806044511880313044717557643538847913497900450956348563669788865682559870473407983459457903321575886931808270225875223331135274334567703395713910360433878462340236650547431334223250493774585986275861200100597738012690204399270046709609967283175150957181598968543832761236826244111595966954293490400338162139441722365727023883731092163879720855511986359763575178940835135041692006169251966832180317653298944408598936520277698875114272200057644971387002841617939665225807780277506336420061305018141776018779057209385415352702245165795723069760591434205538229950751977209012627523717097445341067917479409125567464118973669120315158890045477389641037412843554771925108601218307040369752265964292017956693727172570655043938846011836421077903119504227524105112630369795973825131391608724654364002870418297315128600476113602497035964624258935032356530335161916391855149628607788816508172514331035597131698936247717265363294880016856965253915455195725670672032111417178324681346158828401321758035234886582468473300802717009219742442410559787749546086064779530229024),
  (22, 188336332241096813507147918189620551545940036962795871006529572359467907909865735205198276583037008850867798228474585322367709426043355048622087217138156392636542000526081865893546202697136594036566790737866736683522029758986390153591471625254772692457744146738193747573558291470801288475494821658648160933072710016449220923556270872415995259904121174941846468023532516203941516491043417464385685748725309625172305316296701241089285739055985488286714373640203932568690351949018380476287602549953623712009595355969838716315780210167508290498116126048807670859655105467966268382015964579936202253400076046867909464763585175921523684855645155851597055600768032103694258766993786375610760808312048391916503456694721943870403336874504058717440797576950589722533796176273001357048379295193709440986508961486331087578315762702267363308045920879634370689681392062440323173420022633215303539514116069461190667688958049760727329067531063799247209916454907561017719954066363989966365294757170309681910749118838590269469739314603924234479926216048225498359279600455969999799936460631583825375395242594670804341444161),
  (23, 1338210127535645476376452725281331818925242098700972666343626850575382685656122227339201815429472443650873483211269997559833224101509194011504581558999382553109965130246284459207385371028901985362453964648056056164901601280825288317929721935558777113461262987179265106122004268342659588646696770336189602216622084211845032329802566655073878319477608122962598449303357693266766449082991585066539343657112636442501526675396382996959655789891146217286008684313507614090954230729765561318677013514442337429586550735719659539972270420804029456645394622566586212283187040475656868148872624216532213321758371230914411443062490901453607997897635341347065031750531825804813089984049227734200280699958166562400470110476218129370222291082093254381175876173566232819446764165086280356567833083013457211471383689012856219749510913963908629187190351121933813762324656562702206289223071458194274108220344735509937758971633777796271473273502116093701709207803325056250985272524575872753980611850157891180030545103342542373939687110386084908770308621490597693628978790836924729960675960454883935365170967467),
  (24, 9508554850410636259185207185062259902041976540320352593558817528456542711814627061612137976304079954586977105437580308456838402865112853820377894456299021330724736810585221482074325346704018482423126340279655127194160670234852517809363474729080570214991940554847500175202001849966933554661714345223420769784367416116006559601426681548149696884990089656315335808754933067658056131702347954549341555812025761731630042339792645050971724169708045520281285926437733671873997615232436800228205748987560029524354396123693127079768843732778266639444301612395848731497340816148673306938382751821525289142991598386491122610185398263922316693416087748219153264713093341615757433235537713648297733288920371208860524243681640468650168371352586565952785151203204234735962682945933312201415162763462042361541037010638627512111244409184855815564317919214204359850089153022187481341772883863908669687933300880182826997962120120683627936238139003845615293902959313854699133628276556845151291361808247525201721460715752605871213949571640980900725057385778300736983025062328295714194554760955086),
  (25, 67562345765357436698545308111805666598868757974971917644487131784505197397471520635649662216621705152518129042995471980024014777868086899197847348666379861009395802787550660119799927957740743433259733389695899277740410996886483693399082701843053894857470513952987581145666296320161526751158447499314557072067196306209559391978743450157002336833697034887349324852837244969108466469824425650911266331072873412493785191857449347233125688998407994146639036070968117154614531104637264797025718805623915655235479135467026352433466594681645594131802779401891011203593105591889552924760354156212014548244191877718444303613473739913324137630536005485538087843994370500186589155105953241161544845493150372738244046540148998778352120274458354722614502124830336945160714912560548259996057951063011667714523041937379280302558498984922255956884915300808584110798075473536641851479091987131788855047503353852056500982688857772272132943117172518671171328445210603364966527847568768407173238050515322205891322755819534687844484158940426113875594800082651685416088721106889540743),
  (26, 480059339944868928985111069435771942429403270925389347495166834308766392585350286942352478759872023523309153375733791965175139383287723420059941747307948113014424299942749916759911702871105676337316215987161433779283205295272654136727494683705716489140182382153736181117257442580888359120577515497778798246312754596581658718243865927263599158328980351516835345868611130191240824361266497046939015550578611480313088410003897332639660714526010502961432073547081277376011668830378985457228813204282406513173414071745976127255058491716747602871642877652499648508951614841001350619944894295408750122336096305153805908398349182708415650455228325000699433878434868719150016666834663271757496214999270513082716896529563340530615568959869071302236712474792826888170162488158490762215816480165085765354194415330889843784186398322741132744883304851004810422365521521795516874824435839185252803868673706487873674160589900654978983986849128830757041753186522437075177261795370329703338978553649839705846477141242492387806600465100296158934342058914763599809368),
  (27, 3411026767316151115388656971815151610125861274450111775228716784798955962998625558011935208717240009884523090401642001460470175856166910511187297022694798437649924468630261447687351299761989847706959871633618093052009056774797598753431626879081879025362662707476887169389835439490515069030722515630401734171080263368523504228360138745241998503598604965894977858856310787900199679087048775503013751497661155666865942725375348073466249630556940370593747136061162349523942128116578911169634207678711779379416762786618571079970577658411065529038662461973781632217362204301351599218770001960005725413942825393045150109814640033796834780542672812897891089509493080227494528746303320945254800698982089538731498953539201783416927069865307412460939065273418441584985663166025496743448548847653691966671217483759727581937939321806852632576005756866030712822650698471701300951398850811879821580039657360163071801817331400408047029750662971002683171437670680582686378056263816603655176001634135020860423228056130350300926678169886448625551350487),
  (28, 24236802909997487030499435233928917981855457771090639875159786134865357258798329769597492137781041100405781314790173550302356101236113016150298159360642610860976343259626445225413604699087257632884375926471806102646814091693069388189669021999201090666881843174467894914610409770921570709221650007416489002689531871686180423581240480430961499087489704692170339602965006755934469369043704869247979864721999676623302551233275148468589639021740385234273557062682711945403812172839448657180847510328805690046919702166781902669662889974938770005387217321071325224085221712943144030016841273041220882798809091624504024165926554904607451844472761240378260307690359438583713360747632447748484102211849779639845873065888144311306480774660765527424939132385381414331441476889741193607868775142239538883509489675415727146716604425827433269628710992638250867185572791648773414604648985456293344314180828797050693573243355529767713940843706685992430704868488209087051403270414555243995735759943979231198409821362262651899038299066212),
  (29, 172212842457479716745889925518958690857512705257836954865238866822106141248115774328635240932648579421947641240698661246884799925290901762112462627825397825138075934204441155537235352278695058400995492928352312797336703414728888556264445066017253458004648170489076020796498356677074271725959896571846571778944226088824898529083687693136885824827337624810154188334449648939677074552152231563024489194513911905417541112708801598801707160830973536660151320540761133942647137128312765738317223621515691778302314404030547008326368380912637787707608005454622223380571426349365913507943814783825190252330578237268926191792596405332824873071353397989231196148752866010913828032681082382049718849677350094839192837627797441666273098264568676774466512587292646478837238884704736241688952697585895447597487936784107856593135533477124975997227190974733858473481836195992942089915536442297215180086823198030045632678449622145112708532467621486639088079518999990013447713730666138694577907545830899704337993991231101036),
  (30, 1223645842127607727049749012728047793938747426934106633675290729159045692754636380915328359201959621963377454380933910121305364765304126985457251454649760301382995516526571634902960974186003946277421228764115225941650032726726088503005147000406695713469515025339868901465051121336278168474934861703782311222659072135376705219629537778635825920109127379854482151873421386376863095969035843751658049455378285444766234950271024242743730156902256530771626320077987686194116762866634504698389674124576211319724030721114589606523884279505946316954392746343659154087140242755733550020169594609758035248955748144644345489909094329905788159197026531224389989154814066252236665482796180325932564142662449660049198302549981852608859198354603377402489123542551246701103066724896608002113034917992501416673060521524255434186262280952576691829587169560077691392412973895575347391683600807681701811714860598583378116034160937329938035871701515039569670251269251526662679243708581960279348935674402314945052),
  (31, 8694526642668220454266851595037108736638824005169870429734336377400763444389300935564281468273574800247151188628400183106295425039263753501124445142774253259648488458446885999888663873973026040893221772083734620051529252032039655549464558194618421158610873691542544518499419646139002847714782948588482627809296294346811492390588694185733807311204114244306357427532170065847119039078830684477262194504955861407826279074574552441898246645691663016630370500823846159262317214590550303826724415250176920341866045253593350990886027473237930480497318179477154508976428517929667205299472384018591092135875935598232418613352833649336345836068466091886172945828889771307580732904303873672781870706055238233880750677732915862001347257615682121070892468491222485531016599799990572888198626009412157747564343902112165070830547495796424722247488646411496600925339931679922018864945923405709996078127527573485087130513353914936778795975493507536680760300380032851217332749961420370276127207),
  (32, 61778327468205563763112675666186452876891792166488460436357402566903567229771914969063902809155335134751879111524056394388438562814973038809065016541422317341906965796302573411395553084871458216723305706999668446696726215939037976923979738502937463692389269348087480318373468337513788636342490733465202832158626191884082622947324090504415076422348197192147928781375746260348240056668892158861560892006156090279034499293855654937685601180241526167393783950862914006687690271988679146415002512694304806881276753924802078381675340269986492771423060574568649808249575207554021087016700718288401092340354581843046337584511541918365316005117968740644842603513092827607548085133818427830525424843681804710616750584162381614096832786520684537615680560859871847758430234265232166355681507804326394252732918407958077269785694705707013253247816570806156675251049325312648074950267066986285440721197608581663903909612639395118312415274505130932431787898115424004738157505578),
  (33, 438961418099421250098492035833334433028282661599124455423445585942257961458278541037413829873108090209222286469953637760724511453639463471722930134076183822226893235116690326826577992062965106400367134818580632386580774067054961910887084133091976268726773353488646035423307550869091064870415414382387419639820172352198867636264067082816887446579556073268706810852817175875210468397810313653266599749584120450255358768381467671617708751243947084121740700881788871372976277494939284565908145098896345927498935258855832204340700838216295997082749586179017738731644164505698005571409101337916316936018202732453960940343278602314792345264992696768852210988752853732046726326865977975128282038432386306767296542711824325925942422944385715236274184493231421343052390671278864671185571355331338723932680266406048323170042276324370717819697469897832375822901205199639589345334118016066742569664523891708107140073369728434149074957210048173162422143849417964),
  (34, 3119008469094959324497239349464439563265348891712310258295172971132969974359587430093838221217521433327815614387065812145083443806111044553918334356236201900042078633728823917755760842199764995479209077171647637730586345202457924065573795999463195840748691334316008978583572758111639712058991030543682183371948990287283864918200406857886916309028530928615192509858874231911467076061880958429389917059616424520025354898187276638198445117719827672174131761600420225824124438088776360168134523167073297574046783961018521379049929500518505053286893593477188725892409782684287705028061352249879713688763848656900495273383072560232935544244932700609119792863118440730628123934348136014996131015980291588594548511947402070409010607415445908906882231999500482133636177407585394407485074489235872054958474298621554242312170421898643594655366332555427570978990024820316024414888235527249515269954853879963300579482896542356674292522094233340031),
  (35, 22161888104896542902347102806462257001849628265065279168021369366193838511510324388780622404667927563477477981993589325602982924267525854209567890243432646315420187232769624656592847718324716217807782352232879699616846359366625608349130273214297590577642593790688804255285216691836612219933349977570593038237017040328416807695452758833354945540203951685034805028733893041067428203545068508505698200204142317703046334343107374748644963190809721292657075233529977743616491009957432926587083536665936776569532432927509511928549731161451895611014352841224743702496026848386689550136534764033594871767797121060904966895908122475618389093659471402661354801800591825810786786890740157228062334058574516299945650702662510339849872662213091513417257848042257926190633720544258205537930844782335123253247393323309455389750418859028475112356581596437754319899204068506077989778263634201342643006957706912863521236026409047445836941),
  (36, 157469686036624117536654685568906991490576020460887315039296434564120642880500174623675653213630196301758720496900873281299732214264742377571197994392921045032060104211189794005650591157512462776565258301656182477547369570199891883821853721708486965771850712417619130931903492411864619649288137536217858677399208593075318773898104154634360133856910734563242475638753337549641579499983074384262064195205419996681526200529718538880658423646300834103709811346351024692222559045030175842572488255806208238195877222586300765774801612989131628083855382849281996034435457231917516341421942135891435693025423120318074461995257967393799192804585250347002505984288933507533683842129803429314057766225013722841221051145700122995937066717973940576021657757574113022945186890417179546769958316815863184481492731905243528766736098532309301812590235694862863062529424993426257953386391024078990700326464234682833556131628),
  (37, 1118889415157469482669616564641806572599421233326831633116401822037180429564530290233475207725392380196050620060355428232636758854712638253762735609891043317360829968547934646820139180385127375929700969255050152954765086974133031524414211876701046518865347515352119917331753663964160962148961820751187758084492947865448083288284994267422011050656028902421276139134542983886085658700506448167324077347498836808592168087728718628960409654024089934072378117722324590214344482381028769351343473180732908640480768910432044307751079636409717784961473345920680823849264472422374477776996353507852072381958414200041752997971185314711377966875576941757584694128193689422386853732712053733027257161020003144068726805723995894045461713364552823322617592013555003435265305999866582025085430366132969491858014418644672658320906653079505535711724103791499979510181462135709133564960922984558714711954593358),
  (38, 7950187460590068743255305354308906179024214348251800523686951450750231839240671335982392575128531449324874885199954446818993519538570698702945335762900680561186396627748132873829053361398329736444056292699725867084788584722393783450041420119771052922018312422872943943032735814905271307605075855661247885349260558883266178957892422007757421367432840654806017921618667338084290793843084412398721692344806952802233298863665709538806649488027630121631722576683805270712747106270625449560311183939763910835021820055702575539200833487803907587328471557270360184017272938693298493089783856303262361652653524475130376254423199187090186220189247748236001307132261158870217499967820974924500339516620969095466223860354355988312269825892021039409738476099074109737668387197163030739061955433696960605993777366809623775340472509747160335073152175775358098309033968311640597230510594323725),
  (39, 56489479480533111251754301593371864804454775908850198530948826563859425954495004418606587926835029018412192309028472769362803657163643568871303101011709774760919320810246325051402417908252074144883581345053797428226890422723697305996712968755784318780493524629227846715631378785022206697520912506398151783077395788107137121608359831613683249073107852673641895121657138508065074399612466408592849246486145594526323225421400618918706758966674550909360341999880761297714347059865354370950481360338689873222372487214256591773535881629580552835345756134299198910919195605910886424892993570858137894233590255393096656964491670217503601611253280270582495850171454234053105859572457132866737284401993393596468097668637952940445176059184762643794496298222365489365342279606089209756432497060271587618964008399603048054006034873662696311524149514633213154382417276581306091),
  (40, 401381892917648919696798357495607830049299390055954018781124181549558369681622512317789741320181936461243483009992455940720323335751647972540710507551075915153041188286002235929322883997930735942186132032547389463307174080642188325155348656358469025004074353478541057230545153929032667221091072754329390809251123174825439665933462772969631106453093996304831436990284214077555427215135912813344116493940527325914311848891374293442772361154073726190560247936873066739171712744112471094721693117504644351095743922983206943112096969080432095843110212039867298835630873974792150484213496654610875459877711881915770591554909158325031564100778934012934498879872166934699446264851172858681182885619461885551521607789932624147809999932932301656118849016187260738414363025147902285797811838976612455247945299097913488108813983049606116082192708805291571921929),
  (41, 2851989882782535799762303924012645704449113939332324332326309583912977906574370787928971949838192262462817865342449859408712720240274161505841507354791163630731975455199225249558077755829094608735971833536738637670696984557909728243341045865681870264902082471125876630908199171833281626449849630960613764851004715406706949771200265720872918741914200323288582793081304645880683291622559708806871395720918263088902914815662228042446717321823907721191740210879501403506623682157516995238036899498143659244353528033822399457620088885402158930939145040877049021760901246252842771870822540820477051524135069080697655967009572835317849464269278818920407004048894199390618807262103220132256053895575355433093961367258590512958124987878356455645209792365950384670297237896571990448660642103437002119586247044768012776912400818097902476937508429),
  (42, 20264606936724016396655873074308262272236804050005399222047814971373296526642248417378580492809257958000303822971885510453682350639868502349070481158006133598357471566573057136706642130487803858281705115789111062949005636317787133250384876173100423734183389901536876753114162526003920089565016619803942981650487944326256325226099836740037767159833555810456212425719121501370003580464807638305363334552487747872414958581214790346956776559649511190752406254367644389507518462823046423754207911173481818545174400043256897983177847895641854223342888199477979384742769461677744198161384642496587154175963388281324285104410937372914472780176938678124570200674131642502502338452948418656558695660351478255065836736649471173141780058397370776018788961027000979996532639168333599182989366920158961638288611083977402924005984031199),
  (43, 143988692519231906701129102118612954942475022217633002516344279994801956349033006783734900925637899959343421697667340345257735177217005089879302526688446097973965252819941945730366129096226761333436461412056670812360228139612341345782640440953494350664688986577143120725358380663263347843934931839062065413787621513068885261560909600767270463421771051906543872297003669922570237865125185193271225919706199781233139511934140812543338252278321906060010847269660054864517707397388234955893051286688534106664681912978048603891559186358661594973553815681813402614799351705084434618881753378157837514402027258933452076323129586504061794306483979022364934516370806846984856168156423542296715445724197208487030986650421850575346584737653750457617159584569645713113329669495445353871182052566632078872540009056579182),
  (44, 1023101195011349110338934324592322546312139921679097671730177978551537640188628090640326356963462892121748899305643362144937069126473414906818304060725967848786732847233690767135576311288538365506355845570316545541475897640000705485340194808548814114474622596331336740256476783119181618283686410172857002806856247245267666581798440273338347510770472417005924756695668061160618276079107258899957707669893499662751422584157437698181039023675397586852740436247948014180623804133819817892964521164192446060609108145064071286170476976800266601265109471399305718519479036979547762978866421589772232893044620706599992801491500744416770168479536976946877292518122257696443639925384862586500696713722565566892276230598764180104245896631358949362998820747611972709941474944793699920999749798905650097588),
  (45, 7269571220627917613931389870119819436753089701704039326061334083928057056231097665775041299436501362562160716902634491595855117839686094120691229127612321096359453633086249831267438890280750307537410266587621709531996193102477846007866005237534737417339248391991668487476005842133990848249518358056656125297005224397690066003298353875823406365746878497719594858399024129022215225563885286999745117874001852720471151802447720510381693483879318818281609624839042874840080987003341038063567710118497671179521663647583833119971947040945896714671636611577623941933894280811823107005056627211069627690196612403648600176293886539038678270337359907276687425878574925064266637084061354191797909735812188589173902988216323166434870511612350958196348466143847831191516414911528370364526394),
  (46, 51653410229078514347601397603567501709797864618451792225509209429845164551630160089068804292626434383003094563678615981111717328145153046368518190367160390843345552602513358123409262113267383445230019126872706250448420932658199059772949579220744813634783382764082771526614240041038201120168685685934689572342619324719642732608526259604410926361432216318707387379086110266049915554814750181710246155189584750441096015916066979600671738531242232200269339006661422985449308337738950326962569166186770760047926785267470048093498183804168275431219869888631583254943207513599796368806942100770802706230108788005977243508272288892363634757226765720832635266999005186285406441444107123799314514534746291207510732217596136895803786432110388770522434270835061176774126799932),
  (47, 367019554155081908302814480319167257319164325355499956241865855800520283136948479019201871357057841923253107480967691853935302988415213580625714256725270330707082903106101645348420956579658824912024140038976406362135710644328087149914471146541291497507172663181758353578311446484861715368764377579210699013346087946644217282257539253532238894274741266065182441432349345716218413698114921949873715210725133890766525383195846689701610488110992792444937797633603416022905652723373302432353286936635179781378433863418369965985267261023279082020991829843900215337190973687122224769234131839911472517555434235737605090071922909589744622798002623113455105349831856319769142780717978922407525130494819441877597093998463030149182248492359446160018896739933034),
  (48, 2607830780868041446061159265349028098904428854293513184656673728060527275381364226939253621801084946151072383322625767149356356273523357320881034530126430089377617734030019744974089619927603126246864710813286537247024350585206747442307011972097318279219527280992895187862444718299800399187365399098364943229469069800218696951034214696273607587713008089106276523383491321862167418985830570972910695816660715435216684459462605489025349778013045580936628506929884415159948545160793829674628321124954297028791350542064865037372228061712644683165862166103495465683629231034504992783812401174745825680703857117485892413582610817216565207730950701617418419934076572162749399962590038812323435633867579827346153583418038313933272024934417810592),
  (49, 18529752174373765044358885243618062325086475924916223225527813611254595652023370369500224951771975740307655537169934001080352148516705009632808546134246661190982787131258884897656602138928233313470366507587638652475055090309664461723234679602690420487505598547674585439740608952075897127033818664433896773308755496757944724735609194211428129981912091406281937490373549098796164002477257544624964847325661696393349979684625785422101542348489909036949046991178176241509164528462326254310120920466484156706857139017389872555287484969805212417118228007836247733323131015671893297922868159438395832257593703579481779558118229519094416739917634601198178741240983229175593242235166544230376935679787655721701668669824009067525582),
  (50, 131661808029361999987535265032207564140424522668952698904318862185324659123064139759408596942847507495047517175467569438103070454291527841733166491052096234637443787434964660437189540945615973140691899770124540425422787080322171599644200724750430721756040029674248690009271274023719561472126522640866140143631147908894494039041862073617969294688737195016068186848654679626506051380705311573831623336703491635517842877092603904658720434732185975232595281642323971626559891572204184284209248611405506451000320199698912120718988470512284900842744171859909326057638830497854566947084685325621484920563172681014908177205360184434736030267199546766004037265141142479625372408045113079299506164699919686102051651182),
  (51, 935513412723040005314596108350198478408007379904295667247416632401699586496679199622248780700495784207638915028748604466399291851108846298623252764386337190349267744990357225329137625979766836455451489263872981991319905917267621021583089781385688198925426086967246822863722673178545750141095764681152505737702400488357405283985471033982318891092089738360895804223070511928855346287203990844267871814295563901499329682591860621425176561851417070133153754642464859632273977682680028093097772407371907449541862197100362273033775414447871280395012117808412324409790676061608858479615514542779953798448621739154230778600498947889145051346153747403758798225439162272445831843245241999076790554330173),
  (52, 6647222596164965617863601525174022401699910602021473005488990057200024016096351725415993946112590633940064709512976800133931463987776311938984586500264303320125349670288843940491906353860015109069440689047168248502613522906378162981055688889597361019098219107193631086018214175121678102814626482822727784349405098042371818006511780013287981011857789638442748973863340409551225802152863428543555368430146620606121251795787930330449771642880506110151276455953476538304666226456510436969270060271463819281185259517737777750133434436019628164685748036302640378028085847284421314566313505411983114671359310335380538066740305927527305948295268520364421280022024216979109307592716215220),
  (53, 47231357286854103121694958568170523006556824455667772649924458912096442424490377554470280944092388569558669511045074042079024537462783825258975460459829144372297103574754405761631067957417000414103491211010886494343058043191129430192191026726119976762245245522551227251117242758869217885992455739218019353807898996461680924890095184883124281987838923456629484065740902490265902931477991412257123485433368783535875186203005518595016803835885065951816904525310403767800352211962843915302206348545953210487401825749327373988045319355612774025885337198039703188824644448181366960724853356091591615851196009449026713648489354403337779896654803075883672049257123596767174),
  (54, 335598978202640574307444570707805006339845195779984782191181543794985776073107325062419649347512464711733549866689823422563858673388162581405271441735225810886618426377733327326536704598946703640134857050945873399220011833077895339672446970714576307609130242783199904643974046473645168025008267798150730112586452635567481538031847069686053324456175088765527901541813586643925366632789025776518382437590906240739581021815626397584618395741319811373862463854776673420233552336989780174362063621449762489065478788920032475503689587997781213472646646195259219797959594545448607239542390529529109828443179955609706411343646468418667292782266853497055119889),
  (55, 2384574160903984636003688782379619271550873774714210513474069929462133542699753396618997159712317174520639959252598090302290282212961221180618454540014542746657666169505897308639072363704754293678924593031992350675315771718853594604937057531781708664576966761702453785709337137267290085569162785062024410125204365997982907291088780495974386658262139015206984703820882521867476183187799156915284441703943981312331176270414200485566621783353694407027402221788961399182717932211717222119979648639001525901088007784117262287866116196652434757076420552785065739800976267527111155651950992679960544283563509550703041541041775675467022844977638),
  (56, 16943418479115625785906394059876015998262302097415850484273672128659499757542594749062452717677212291983156580169986018466196634712225516975133610610058850409705811473603957681784565507533139306702159946262112440246870378888268262055274636460757240898134116998695643108068607576340456080761376286317727119490247830029578985110095453089756932897606296305114821802475603038292310919221052639731391900847413374218507902373282859919957742742858560362508620163813334284414809527532523315151101910932369519282626515690010881861629761298247133522747351411914252549281520566010686502130204121164679365143455716671602803138453956166),
  (57, 120390229192790526624224824984396917213143430414157934534303192267528179585717347573849401561602106389819505659898489453517163944317459518431337513386743958757940807118196329251530441683884410369295731561105842486566871523054366999136719922912304993911757435121785100376324240417199319250323597114457243568006127137215695096516731626143225821336033981326875261616340349682880288088833928532981373560723760783277365397796630595660507274164264546558507089061037231403419871015136196054508386633890050205349410214182324371331044853579071524156436408691527172457391433367242906519040236456783359811876202974482661),
  (58, 855424028094308588014255536771990919302317096686575022618845917678499548958772519175011210147359945304681375010883528649209471566291483649280326938767451005958201421861580894811733664841343660423533794451948434388855813246331699720442874411438183523441499814673977865597749797267326345187463241804332904262046652333039279087225820344842441852007995959240370496242966509811522692856018697590005623229966086033532125265982559154359795775866465342364364727317932416154932059527985061963693630296643716023532641986796525120336294657988267660305390980413943625897564144308729116912143799789580178801),
  (59, 6079614931752068172202941555316520590602033039200980468800857256992669090667094903007803836331152980040834177320229317091216490130881313275022076326377112825540204516627393263523766436046168372320080270670417529331667453237660942717046311949588525198246034063077786474292088000294874672526982976429477148970496362618081046802092265753157915985775958798450293495005960305768636324800681161344712486373927097074996291361918333488647778814228747104760261958423157012601165211616773127379751702213868046807191035944918976028377927304319550654254098444804697389994759338830033408337698),
  (60, 43187876416065155077574338596327563347419810772891204553515093094313615855945813063031386549741601135404899978552725205489634168896870423776255992960133289543362371546097598904671405366752274318433609226589327436953748357256794461766850753741918235070020498419881686425309009745362601662865768739732080087383567761372553518511710405448968513524735701845211684360484129482652200472088371952525640565133382788966713107468956602267178183861862278761379932929202089527103411162634916359198666851043851877260467667041648976857340538758795080455950374594286353606865224332),
  (61, 306868321234761503943284729877292019272471860051880485829305094869329620944313522474361027270779614311415162469026755380654250838996042638761829304617952323398427160487499126840777412293245756941181948963486361536335056882330152334296466999532959952693773916058768909828989570335814034999380620411521625096604920688801540809364214433209437555168119017841425788091708292253848202767658723935475738287049135884222528246684973046669696002771112048746771242034964049021257188252484310926372458713510633780499210293133170254245394919702659298533861053494740),
  (62, 2180430579230843007061549764196831112304708386960914470883955766154691991053986053346523932748848735344512486815697867150482376468049621334861158074429325380366624217483244639590710517874356549919127693956281468361481910244039922170678515437846689904574290580882230758497946078428873970520511219595476140369080291895379934177878408223471106939932167392946191391664414716746164961543125435710904138451726689326213026503192881258621225444379063555606791004084435571079084858787988842521683670061550104450580347070783007491474080452534412875),
  (63, 15492891021446869861989554193962690324809292711127996526001467179460671102886233186576245502145107602806601541798412175528801053219683581702592415299227257874861473791896650155313752571360755754025884283866272996947073819942326747574279042854807363524229820215188501463809195482501030590123361769287961308191114483995948799015863501261699319170547603537950789046624229908950818417731318260999395799502980220361101833741515588141485683400372121685815552178835954446639361731314326900201710464903627318763038646539622513809455),
  (64, 110083611684034165408374565755776519236531663944599468844500398303763353607298404748606389638135158782715148115243915859916553937781151400300346867812080378616955194414571971211304397371790729741974799047963883090921634527125924854704577326858786137546575318994391458558531978239841442857699512073557655737283866778100114661228971824097320435245045868013116088463364555440858415425384495539604326090382433457135162555777137168257242389931798959952895135533551890816815911718094049010429633152000535290470702324),
  (65, 782191112616980408747502842114515706879633445201247763686279387900324212131030528551089581125594370802390530912567977747606364342776581660412498900637953737169764196128436274488529909460764440081671381534778806860065122917328236075232003365455913571352152773519724784404135743169369944343923391145508777053351585464096582124245347866933467112387619507319094531411208962032493305245887089134331620182955445203340921116920708697940324598437227682242254156199209805873285021324728529256225473251774),
  (66, 5557801966942817861836795248637395950842707364323087218872105362190260529025994556280163906094895772550761788277899722477983530215680110733581395080928655583448709508572390264203803740340704684336978583067632283068206811991833910612303311222270655302695701023772160141832607232290538057056577377230422855646082878896586053409372566077765913465812374660643664357116710505409777660917423239495287903725157908972625734823965521495629622035365651740641765884579109500392936270081765459),
  (67, 39490559095556886264384277372272604145551954488869869487823243314294825134674022581262898478736743082856015661925289526757649666242160468158983464958675566112998484970730155414522101851595453423120449345196081752799022644881195594139041987687650272530176223734963799793538277885804343774087429702566992583139860284093627702251976236032214762310884165075642803620183697144468609865185987225406855631183370384345701510090692824925068132214898823479297343961494133723934),
  (68, 280597448310394287749368120939147199806729031129014415631974294779181296974783302700860988135347660360903207723683082196821255717138414270665234523504430265304358123988349220906712710835206439468341797284443451973997343833048594209353942115738648940963713136912173878340336215316666432568575861600426542008369802458686234735090263685126781840280162146356990790084880401217267994432912064698588638711787009947682354120387584362366742798674110274240290573),
  (69, 1993763713119907575268993263164905651184396354337788952544293727967506046822802219605165488195857288850941149704480431812206193009209668728167155565703136221983870528532494866826133464525261197485241065028007861616670992433583183141478707213196768044532979373873606240936498737805941344098585328266801764524947686066828589967432464245117268313356109014463341043054904703249828568286117788625539615884170164052516512397795670888678988904305),
  (70, 14166557910013724929688037160653162376527477275602604361015142950300973018222394852219834051083413131465177955616360872891655518256019345952831602577623702496819643239294603667301931457862789742149794254552690320990154164606629425214842972148918850362219256795859379842665392766484288203764521669541667730160245971950251495742848841938112794256236149235906669811118198345245379642541849864004808228237465323172133350253919620),
  (71, 100659753921715596351977579778930688903123061313218285580808278700031669991156663936029136443241745288441893533149994112256270805925117796802152872232245396687682664461538128250804354097290606378456033762607853673177452375115725572712906079132711199519635458373880895571235420507675706200237421370785674725019373759124456487548045882493492522367508360498953513703589761581240232781292491779805942654697141398505),
  (72, 715228590364997562769204387615362777859634379938758781836406185281439847326319384839924810324756374401009408975744168245952022876711882346424158317676089990472992986798361682068748882381990699479544861325540802166143532246687135689885157610169817747783464809482876577157165272784890450030071600328015503253459593134542152737748764910106670466203002988240956699618493470486883305390738827519714340),
  (73, 5081989814323236497686715185403839257960199502502155531759647875529680860968690290732895098013876632132966695609797290002702363151192119021241315041770967119713265611833922993226893466584461895488319468292481477619103080778763299685443455770725817230404398995112100026258829108573142104847848766710410823405997184847978504917606607215964758422499217913736710858235421560429874960008),
  (74, 36109868852780370281950393203928312284835181045678165000786121976099148519989292509029761761787198610213459287538677275129733454340885632131589950048514768331668408578791234011066363355785591059732994648966058712449170590401146132202075254985401747722994985835433031295300033322466087215557324057959035267303452243243887941894312000281793082756695457694231042021352236),
  (75, 256578649230950068496457040257328106236166335966116157642782061207974728274805280601330698452220603025938061984215059396857352356102735659323033737328561019539741401329181725211135874643007600164111544470525354797101326328409551229778086842222757132837276186552906857528697682806326484662545033793410250321210687197770414433056487203562184852608539536419),
  (76, 1823078261629877372078385190429635923921757247715265427177669521683679003352577282778941088021342506866152431796273846658286788861842145642249098010955071495390874842645545259044442123563477867672785108134230689535067746091316554924002848419069956463399711866214770423839312726723937200799053634841006794938543849140559649914488591542856971),
  (77, 12957698295486075636712163828501578252058392953915319499980760619501261689335346242944012463366261212629047247836847053783230274483038061592995000705013235066439300524390784628950813509526071925559007733376904319127572319949597125327978766343193068030583166461180159944543085885006875127551326217791866329972421464142279636294),
  (78, 92041862088667077545263337825082028718574359118555298441090896876582387437862585694565051473111523297612877871043444934555159959964714114435927034736395402308158932969732274479042270163789716247962229886416792910817071782262590292024327061004672006718773135234431983478538619215943386167561966142330399388901860),
  (79, 653473714594416977634601101872131297788066246308092522702880590987689469808961036112468461431538738442280917243893337800502573561486511655486475005074231039346614623100264605224590920325124041154049394998487458138150032593220140507294325465968023309910034860558530021890041978931146080241734356016),
  (80, 4646927894549152315225434985508402168574912868727193212287588058822660099256253487965302187413611934654124392201183454188203567192701979940818669117475771394303452963821544484845443386233284122634516180585078464396052103585797719741786196115200923367446380905978458838161815743608614),
  (81, 33018409791724537019821508382908946790944944049735839619346039392265753320308808685703246771197825628687058944411877102787361992410000783799192948668704261913497226407674955213618596836935084000238456986326109218529366843417710196053418688386550033650423804168720832641),
  (82, 234609908753009134662746568441905403652793116089858863332625302849901599550393346047183536823286369057986845066646179316449173688733837774947813474477080431060213818999844451826009131515554575419174270410144327908353605230127630238908942196031852798631165),
  (83, 1667003600363076868820357213603461103640421567782576824111586974746313991119207901220531839280649839813352102538048753475671638103466235868473568926388248026798685155051232805673212190589489807069191351855556427633745292401483505491434868982),
  (84, 11844773779120231319647689254860085058552778745258697189487262829537564670248836650103924545670536617353864559842424524390545582147454372575109052114294176850122395818762377877882378372242591633416477844615022925421721812817925),
  (85, 84162183116802474588840807164407608397806751729631699509494147187274494025444213783069395956040420308015427767007628576003911998259283791511930558971519748291351736971493155778305113678466053823055040782488609832),
  (86, 598008502986910870900560898372449593122585222567055486443521570768850150519532412049683811625317635735151419865861543573237027420464251202175924948302672792357459133955269310099850839355165161512407),
  (87, 4249104406587711978277605503098490642863441031099879460320743195149177450956245187827850312925188060180249057573523649983804537694614223209719242701062165397614792166819539488961552667),
  (88, 30191662260563384500096444759747738968744658051231317146543509174450004476148666491656943417769880873910070254066636284674956584213925984049315828567233177096356922636412),
  (89, 214524940150395262337874579823227430691926551145282347452165794074786943963151144231734909883573228948588339733365770086222826742181694869071209207287129402),
  (90, 1524280647506282225037698580235210684504562358271774931162206104606587479197042927929040895737065686678276282813524263877514304717440798401972),
  (91, 10830647319959774959451414622234556531109430602778506271734480684858433035451842593740327566085309895055816640884812203053638250),
  (92, 76957654273113634459350166424415339023020352699270332882338184251116998265504863934019724410136971607719042048236),
  (93, 546819623382450049747449776616752448580224990358662205273309357723975260509867914619949912886622175),
  (94, 3885290221757263621672947782788201356158765574106498510536965292860137454257108372769),
  (95, 27610498805878055236974746598049131509327479981508818054518252937033499),
  (96, 196156165095756805315250664157398327227547785164959418353),
  (97, 1392901284347089123336943871018072071621298),
  (98, 9903530045393926967603440360),
  (99, 70427035651118)], [
  (0, 34669663387108580539633542875736970516597221195260700140067114948928750812420335437427847914282867267703558801103000301601400666706100264014118695750097778021419487336438588621713859557509782214140389606247723670583434476479771351377411455030361019182601178432593117023198079835877932031517913431239052401106344077424279065327139949570439546698665346159847542154544794800539910870568724579617280718340535930711652331374997640220329988724754809645464537407805154692215000890783340930021725518810486451478322167564454173997218775654535668880609777543976129255588416012631420685473179439330673710391232172781357357321858876849784558943260279987253666844730865154060362730345610998556233563373508040716745780575057713410959881306450842217690314252261241846242017193365767740693333437679919502763171100257762510400038565119315548551529503781365963233995245268947675339428826509359377623090210327259631669635030556038915203432419892476648896875297235087262650564198611234492267518257106631519094907609235822268837410822814942511247522300194868747777836834056266456876408052588825910409579911429775674983775435867416882867353399233028160612203322594917075150871601164386842446937276549150556765533041717609553911777466458154653776201936975360093259715621073534295798012870676688186813706430550232507823365508181567126039487464473463944170020311729808477806985659502737104698141503846014598197929933319689385016368313176010)]⟩

theorem ssfsLow2_ok : ssfsPlate.lowOk (377110953 / 8000000) 2352806676000000 ⟨5948818537337536, 5738175952430544, 30012514413591276, 22973207040000, 51689715840000, 23494619325010176, -73939097317593519, 0, 0⟩ ssfsLow2 1 = true := by decide +kernel

def ssfsVec2 : List ℕ := [
  10606509650898313184198243733539259481716239451156951315605043080540131216352060575062938838346336444884077596970220142413485093882243486929647807379759531631867701707549584208485178633439087619212199076896144681522165656457604221247160209808427624524391468249349312660500016001739358743335314607150769620728347613471680654439685047960801198262546992383472078651503696813556364749452609832115391877077810483986080368432953849426988068099715886307753286279355160248154869299513576318568339529393909266796046893917535340791040780846989081406055245035440263793986134223191991833090890317493882406710820825075242643649537033623993193843232269392940703086902194454689650051529595590583044930826718248492718727777250440420151656767564089166433257668546710930562464639823861249214027903126752914814162320635581902576004388230013717080577741828635853183731099475112266974578057094053250992853735701630975896819690954181649242281357999787165179606050758894233316036637144294107960348426278860654193186759776057864376886329389263358860093032587734462324675724020089001751397637045766198504004087708635456213165948438878517733498463168414127152606085012973976156034220479009175851844357612824832043564918816169540932606547317168732374315646410903644472728256403520393526597916,
  10591208646885363021075807566471312532716798310559554945334096825383540429176810526289137334456995994932494106315936528007455001632470998926440220054071106267733852012952125995240802122291799809381653221687279453912621493665772119041846259938515794363664177584443232615850467013880713298498790905249644288871937857955302913646909173325415598977569670956672689364259580046327766659816701512486980384506920180171116933877520422700311459766483642073073052948144897857639761061876218298716679700180468557571388536056868023651931840315105906969016713827355971342766437886752692085511242426733531162959330992246614518621836354204778697688671505122100695159837322430781530673846334361978474696090782884202974025485271665032484288147058573511479531630351848685267861147934116917943576758969072276907772356212741947004063258487222516181544883322778412668959963923267104405893761699379416742742565638634630587349091080447044968422279288243107512812174543806835399829159849552771557892103869013878739342729900827051680320403662512697564633927617833806001948151569492988453322872496933385003613947090255948860473112450428810503622799633998992255714999463912635303658562360610083892652634380609213362848577994016408388804274792759900724178877894891574334603165669724461174829939]

theorem ssfsHigh2_ok : ssfsPlate.highOk (9427773827 / 200000000) 58820166900000000 ⟨148720463433438400, 143454398810763600, 750312860339781900, 574330176000000, 1292242896000000, 587365483125254400, -1848477433331972421, 0, 0⟩ 384 42 977264796333696316264890624913245248427087231097607410911866385432754495795009646807441799354167646935828460 ssfsVec2 = true := by
  decide +kernel

def ssfsLow3 : Cert := ⟨349, 279, 50, 2 ^ 230, 54209600897125398998070254737069162613548259997283136201149272443830100000000000000000, 125030136426032202744519312532348078007871909234466418208576807237374100000, [
  (0, 70623351611534565569584626622398380765316083684316341952179634389232525059884454241804389903430514207924759658744433568410630562371328196756425990302333746719887544442656241274024153743657395122654268720843647515178015471121797069304688654074800922685093686917924987392620939524533424163933671142852718655228935880933060361615963451751371533244155411791266744581525459891335086906470019087835798480996930190168615287946486469098501108121230180085134855316742430966137148983921300482744524259492596991061438565953526094755876499824112034981766470295514704907120871575714166164339534591700286778693817893542607042826068514865814329474290758703698093847002270808638903345101258224158564158723593467781786202618447388410987350240069195010748084516610575997213307595086006558734493298148082336033401471034536267686375895207330827933513293002044460690777428964637722081902775667684376847266749437665097493932181531550489743008545392949585980310136703146957412332988812494672381051640932176948876882965289704136195668925111240408605929406497385983166359652847496129003248715225802451241626653572667585929803645567890469712321848456527673064912204445290314070245265155626476327181848204322733022622764198635822422189586480914357386212126840306104517810033796102489510407703378978284524916201509654245211861836839427316798576051116246668321910908679145084714910722242734015276459882028436678997731125484210392558807571197972913705810155236097234815901354960057936545327568533560900542551142327509044850861644382990),
  (1, 62726136823491341438734590195988504492279646890571832392919729133064580659841257640584499028560831214267070727332417498838223388912809287053500934080692396527748617385605489640200644373666417964734687458649789892938769346259867134864208659292233802922008552669141937846919095050986707691631603862776172494668176230243368185748968408829388750579280939019109003926075677435017649224584017158044063884097099954646670605480533516969809972226581979087220524126006578155293479012212059731396728919052759006391938416471770563825378440612274109563291630636241164775157298258689142195359262220496844365393841519360866054539264224796728155755168459560104848837108240026281408238430370909053268057346614733072596281655608274400835410368760584170139659846001691997625235694343114213479937336201065854592267104012205054888207262106720666352554353740360503866566935348534952311459135431863931595175255150848901516748312879013976494125760668962642280948480493994809453538828228125664401658886975615967697793881662093051611733718062446585446357196387198615224015689566639855339706214601112080201750971276383847284216744839558128713821655161516429511904171443325496079722721028929512019770369899806592156058551234924805872319509537596309833058273289409800824387184047233758228413417923263219637384027250990295267938982174375623198662602032258956915047613146329114212739195900451684139165404012146774781916233076874983348182314922735891940728361788502830032346684143814753757799758633784612096892142848294162),
  (2, 55712001077785440712732036404753444639470803238906890964986428951719855611500860735754151478672848427117500510285838486424431657926640156642389275591094537560109034235811385545766220058039215180371053620191610592415893050672918641307205123016276604452763190758358597932650074475127987333247658378874143823821924059772892621444910207135372821381223701305047758346077584156412707455890441528964458782217618022203737975334779131624402481404665968725866511101045044139475391382399370789784781613650055164380143922386983764283581504332553153494298136615657276447947192743696790715168170385416405700156904691899664848928753799994467702299228121288909200893687886323347842190245588900391540033937188717123935642594592646518938876300576490466905893722907184137819955260724078303749467221046621347354449312869958685532954092682665629780448850046927501476423163172108346530026565930843859280033536995272645722818308889214760213518716444812958560149585349301468074839513164584998525458690051650261486115947432709447581957017459441346698204870329612525128650737068233060400457360568410271458665378631063822606566973512775161155342986349266296154755466432277105106081875462184446567326682758087930402419052709831404095565843087321584130000097393698403063825120929885665984658804078297153369613428019851488588308171622045507151993703060782729775017366505518646411417771127692474813701346512736361671787276479953262665110933735708934505510151887731810532263834631750260690462044451061512692),
  (3, 49482197076273500208881581853108711073011675611330792968068250891856165135917601325476583861880702579376726038817342500193535705764972837084384629928103292917907352907509074397912187849188073956071080678492948912095140032241109209359588314882086988508593930654383532697807400545541260981158071683326962058332539675633839498624737551268009562125465200230345136211879034641031462569891911867822838107429139300010525666663507477954422558573618867505014356397496247379142514462257438896422668298555496516017657826874247604616900250117192382396697606403272307645695789123810260401143072119689444857817027438183594174402535454046532301026197366649197167333906522427422884825426638499226827256306670074443362748017022583589048416872621709646737640691530547412333645330599989718499068385853492703253480042322315236046942074539639438072455753682020317756829737416388059805544961757367346857127779609573338175788224727904696094509100013926259347098241601818625666347258598623322986374914467473491410112647341095222643888480038905362138537891147601255664676018112080303048512227167097920010457512177405881083671029028668333989980183610443934914040016759652192950693231496289256070624324751468890311869466475602799378576171516060581187686370199406429373521912154146800874934764001030275702031266564790768052961726854278422638852398936463409173207701218907296560043745781602897607184626483693724226339344502559920853155656463551608273316162283259352448768781187771642138406),
  (4, 43949019602371951792119065191825054555843297853984172862946690528672747376330290525738544144698115734046346382096782645919170952188698485528630580759689276972777578421271177766726389351337413052720041098967613892738983617077940361548827334849076476590912989753211344248272822420102919741958558854789374833015356750599798389885502602417571452590988702735080197517321802326000704353921353603516937533156654004175101478460253043701883743997525139009280502343960879432593230953089926720209843320101377190769356445362103490192845502000943114370078124895138754118386046870743661297940655416065651788581420927973739904810523082328692983573349107635066287323501384070999085955616683580845941034527152270499550278895285904045077113820153949398187698833906394689692392889790669941125585960681251828015136392316613326272467481533197749420107598544465631652284036699893091940643234339298544699903384847131988717426931705411889883430656133288286767844712916149466873973885244776527087863118266006817963213645265294763607011631872765731438131717499853815493082641326168831811741784210403691020408083196506480268303850815801138834555840157350916073560697960896733617388625550334196646557776928709049512337066290893827944540944184476103458190442360139120326571808329166343055597985882771031527656427998863469120542423701589095729727161187811957855995243292530900663984095793015411646760949192561821928977693977014959093722062585115322981574484929676984511943299),
  (5, 39034570777828052384622763334048455812020149128168615513901406084074572031328681666946138492863833297495418818813766179693167054832056309048224663973130263992717975973542826821318668205281343118831138409951308770593398594121253737690903266857998094287248264923881130191344209510900366387840386671715006187141348880203162482897917239539078054209439488393126220407236388034715248677567327497479122875881849335094724246669676626322316812703260042117206549376923527040007850703282925200013152877018750239711579937700221924453488223461189841773753154058143774334625831832572434714756868124177134982817060908414659235900245457217375689091882766968004791844989458472045401286618948924455992078928460303257725537903017997456433553302027171236945414316870246291427881822483869210851061857845858722907306403218430291686979305491312635353864446209165096871522682551890506854001529855855909806507424352325961502522001174704820828688459995498195466382595943094955514950135258751331694401699771133295765607922889859754408470552359205058977330245991678375219548693207921869409906846712500192644204855205620331516039146686405612279061635877374701412549827394436808759884197006614101172440365906814292625418260921172734267919567853401055512025252118998442199105498256980467125585987873758869650353726820013475024107054220514335253755247548973957879150774387638542909133803137320967384671647922817623309131798007680165089407776862108600047874392906),
  (6, 34669663387119327243180252141242096821300843626699874882904914366469573112065575523459897118815926450215823602832821957532680789064314808506465989289181238387002606024495628104983158510285263312342265169265234364090479548370892911374319050831462396012264072737153470288482150979266688976833668765771209161256836289083638235347126277286111059833776580127993254467246718473636350662724403408334679342253675030241610476704172608677720818538584319171663878173687352601684619093104742653944613884184863816424196283916643247073812480926428395434777889801352645807150024288969449736019849108019865077139649316479175120349429875171524740672412291112639352695237786989417800848934808874755094952349811126335721348146511001045790435501903252652484721741824362032453882514751779714749044394748690962575802047335295810117209836854302272143693496919803665839714071506619644493468561419855745586192868660312537712911323033160474744888707125898847853828249845544483669381052215634057224378554585537642584013105610690453987205794662490577599477505305355064047072982945226695797516669341414011754295577670105865654780110367817165526797470197410966701043105296175720439441876232856444920974380834812807807814266282951749515131781472578363317683589415774332171508481271033343918032875164764813260825334022134013226186116312816706016518373999693073022488261613415088367734956786516629738923646582066277733214036727460613809363030680964),
  (7, 30792846838708521442648533297590344233764884562990596001635028453967383976121627657914736597629124742300849669660641386165974046862179614238160823273343997943042357217857373447259178397611324830631747162704577461171606385335576658272583927101981749263330460193144203729885171037181233171581064076879308641717920045940701807275409846468343108755315794547593270680475577929258936686470713721719475379686708387311959350742047246358329838076072862160532725647064392980489735933307888869752257222459616314479877808964391345578034732470740835908916294744408669857896757933348186213778470334681974665101607073653104394687880715425057451927255371367804187222255397335014352562191613787195506669177147588192910266537568380999847034343747250573752990356442470424161257355735917689745663396095570831413441129132871322002853087379698097037249815484890819220615176356059699088388465915714501955927725322671690960607583057291904836366569046562402201526340168786449185875446937555713458192261617413615674830170788729583588685339140490395639419325462023036600157215722349732468704373947040848864671134825480680866336917059254757234926874672321699420618800343902712214151786142540260852891216266346621376092296023547005437820857747641425994135368188043815380435475593377359804390275361035036257868579656758901396835514289371099020457261285185095118583345093389498279083682363736252706194867903970043102914120275738914),
  (8, 27349542043271694381171736416885668212300212262174441695924653043540763942043065162265842597673061277769414005430071334854857387465948198382442615835330312291940181919931178157467173500663160188728884650031800043486362759886469717296033963486432922673430200505992509518777857384761564329633395003443832458813771969557592577807924124917810600934478624354187671972348837979030401776114852318047666224808239870876962481863704204616602919256585702758609002626056309939647355337908267217929770334072015713112041211381270533638154391510021059097498797921865055843709671224722504921541201770665759364653827544772602164194250331294673594521624306325819694219432231531249794085910213058576449946582897489659145299520958396953894640732214988458893406902750415839852144754054247811011737594609224975108989002538442299856406369768438474276530217687327541086401470692230787388002624581794033181144495156074263809761138019794595020954681904815936384734951939583542790605944473778390472588985816733880207809150313592427848923990562100177687519353875461256407942039041254250122878994339547302415744485215029363394788813289413179557133442505594102966906838655747501802169839978953167715225047788057801193494302405992098950341257890763700855725275713837449563679913252673674753565218553305056236418363794366783808309199590628560238229487282056882892007629899371493582126488016153261601717386103094479774),
  (9, 24291273031515273880266525521299482948616208868214355272686279023564586314737055571062315326268695431500079349429964847889645374574764530205601239461133901294727630294276070045481064209888687653379641526504139762656032777438814387886872122630227679989230023674137381477011126619436731559323965856823013081249332079601025611889881539362417064703232738707620540254338048006138395820124115593809047437172420325655434046213129841296733045732721979498307898722750649330679344862224877355283605261179586458742924644707277611567833521500361690181348548246284921446701785891916935501258153445459759443685008753091659485652608545329886536974892981643081241033914736022007436931142843670695509291881305931867850175705408722201952670086848080769318133806342429239460925252838743028916476495369185397298464194750899543061298797644780582121406758664473816218091670268816767984938760146801178616142103944044631302057080917050132034695350186150760487444059322141869896915754109202358066705308126762474971385169898946254065241610601898491367837652113133320603727392974316953235414442813799937326442880121528982177299587586473223703366864466942370141374289878157379030066292569576762724122016101973275113825121339358719569124342980835494648924057210544901048864212653646264781834407541419109394036852860005009723011260877070070942997514235562617159794200747561443553743829676382438238466),
  (10, 21574984495000408269564207789575730570036556098579834989485403018810639058858538450373568812062984603708316224503644633282123087126043074633772325325487505759566268054770806265327261543395570563562077056414447545617911329662498984039492087954656714640963570287984832261034904508129498200611183757296127429164330611601153542073739761244329168959072376069798526513258811281028883592557586095046373479636237813924661786959061592687722116479341571491908583544513323690250312158037925827721234950560269631953597780424349219547243229621058387056977417932008151289304563060912967500480039640122533738332688735242668840846574023890224651858128376911334602542921520226431456276727585710279288515563701692305103044185363000396185376043481545761517319285776631408411978859489082020733681776539756134293014574979324377839548612394038572764530214655552809741054810765251731485647060906065285570497612665966448771521858716356331760844617625059178903210485905044240542491435374952831663286044687359962815721226876539152883663985009831818890181547037760577706637387333379005805826492100898866867751388581159527580683532562362410361746548725787436108404933983461462407280122222656961059721740967867874173585495529987671428852067849882034357929320669763313253465058410308097709976829061921861001688440526983725801089127503429067147341788181238538125843235097267040799400251),
  (11, 19162435632433047976783279871795540119578417367323470953511359719839911595534412271844506803002614074988114206252060077154755406209325706815665849015829798267582331583684067000538648772641868837996172910417673136559354459058872207912997974108386609668572674476161896475884300925989006134383745829268526960652159134318768507814615108889871518824990936866297505418677969062112191279621094073655921410091694099381630628682255807756610624752123334692693742826955345836274898278646796218659618363064852292967516789478318601525639874266276239098081274179244211579480619346739693326294180137194512149921911894292188965775153111917203407244827076268480295745429559782716934255851059028312624170750352837400646420383756891908041678539408644139862505835951135970740977719525090138913582499852547788777200621980535173442984493902745503016788661834632286502364815792844723758620573037957503574856229240401664799643507847072700860114741818011785339662645676560738171680210502310754037437713310686922978259590296042935541615131685110459601539606092876241650848870396710139388157175773085356831831571433693777305843119304549245774193334800758650584551032034812887690503357403142471783157277064770247639986059434682726914703360449797249605129427415189149567715338618662519235686187227998736786583871545683858044716775536646716289573130927850782923172576835),
  (12, 17019661797603277393718902455323678878498809776719437008169045569444555863502711149949880735909502676216394639040258319220164624199224207480707655608670552629961006401854778787463026403227050367661402527296219042187647877203702593998543204128946172347320902691320004894217553483063466187178075788019811979517095695892563172819682890524337377246019929849042874561803543173152933338964847235043444048434082848688441034276413200774489187147765093767136191016213427557448763716375428603762699660382653648081158646727051008394018453486604640629564101451114850396253048751917869805831197236167336647081880654483590301516402707440880742956018829062365051225399342544961955186265624007031495523971305277817032938329945815187680480610415941984279885518522323436791797525886072600493044414937981392466548725023078032127597911349631033653779365364712523640680757426116162877256498270984036557592409403844711688073566437043656051769511458640099524006060244238847713467035283201869500966579181014368772404005303957565759648280886306751340011419841353390528420321035909080740652347631490346369163502263378987782552656189589228523398893502824937973209068819539994144382442192902258429188805267424584077365236341125556573771279232361890896808503504900180471416212259452951414383420273746149235926452653156378729484901378278330633998829783987),
  (13, 15116496319433090709616106959718240612818903230937035376924512490364897908089355341063481624782107533405714723881372633396563283202962907326356488812213213683369441007560032705696684114344093278741164450131192789022329995706472219739679612608454657983135785355009642462151158994675438348829870529244006654491908472577035474973005848059726951980797694582392386992098081821869269644673400630228023916374029412606678283547284960187460044335579302749864841864832301988224563124600249318165003452539596388547800333872633841833471535185841193285767267412191205615798212939337741628184173693775516629116316341823234324084049404351733417853070632000746299352245993100276054232888620981376751095145149574448848816830693287792463984650741437684676746028692018783134363053581963556873007352463456821101725780564082084438956678462990248684060142467738417926768728682336711034717394085785909554590265283291673809114816487077061242088797807586789354808047581232240152645775530683767552434425892354664551434307971931368860387410132002295064527544958915468857402339172834903850474764755981506837937008971049807128516948392930156605870706249583227415408874664473217389899320604719129024341375778990769759477834836739113998049236187706407283571920593186715331695542029398073410752472764451309898320374586370419983167551261317548),
  (14, 13426145812329729133147000809638880491629478402343770942400525967890827546288578542567326933117928927272796893134995909856463861287869764742294763947597430231806217189712445731484737793493658922445449763162630482849964069214837978023540650994881665826968938981849550203773640793183129805215945078972292289457597298275122458144207681768978972284965951452487115352566732803381333913466218912868113124209695066917331399048799298846618007060836060668779625848818897951827934450427511848296123044641070804351412368501491972019745077176276208812275207327132391267666124679598065951530106132180377260496946820417902171805561741908056239384276865334431570570080701930220733798529124616577264776884511341962720263190501851090116879033240532316643793356006942349720419238021761491954578271869510604003812740453850922252686357543937318287032033105375326999780534576788495741014641380103661711726546781549027700888722886742066030457230305552334265047404920819459233023360818047980357907932085025387944087253709867984345575014812850474614669850773475527909245698214907581157915342112158551457103593249763112935254019011129651110539013638331880116849896118271890880382753118477262167009060425531941238788862009885918472184457193583903616744284318801073457388499478451699548463382196852230068074999796927306369),
  (15, 11924812970284633647451842683279073610463240665461646322828363855129326547458802871753580390846963290396497820115195011545291722258627415273202252878111773543055894517078098592043896280942468401321554935710342437201161986051351261442720431327342547745924011209546520837007230944721447140556535771196387036166233604237460210275416796454568243474911718219098532022560993867698065165676975930001595847779437249596382094529539301166888449000373482564103170975433130316276597665405152154139269362845246796124704150857126978514998849765400788223540727525882016071954158024908015894322277169447293263816616282772029798673264911537655519177083958014951515487536106681258099026393869125979161730419757167101548793989623668464363476662393153190389322935270498201555900433397071517479448007504361878648865696788581232125993290809622538889133262060842717904966047242412013068000451066477555478675986402315169181179104913505584683466811741431834570009210857538043108732180643814163985815135030740228238522669002862024695403331895004303737408992241082269277896964490099962957124612654278574965954762165041829573355054251121043774446631699237641142454702439201542305542201809013984116620436268792781020956542188871271002564713360564761663899371551309593738333309237071295628171475229033945996467),
  (16, 10591361539158533655602627422572337710207181720605333425981053768970984342571617060420114635185862106810832453679556502745793809956751232525060114253850106663266596364639011005455540285325950856061818206753454916583605771641115443771753530310048926205534673148945391922273703733268048060154045803031911768471376500097906708876405553456937892030657377957003806973987763588950379614098989599232557091730540919954516210322930647213201410201189769389856765620079620762478420976505273207771831559404861676736700297179522546634465796872556055598107239216713260150494508917615368514028351989074559922058757400962204754721877295263319801814033423030312382004507837469167681953854761623118490477823499456796673658990520969603248506434046110212707355490873041963942029721315152780814922930622986156471708999016547896815272227109664172225996889198818447364573894096672487886067476738142565882393053090598113736997064675279929284420182621148218013120843937030959090033904905892420667101150408119470182519386218948249227281077015165152314395859607658419384464733296967928671833088240446497740966128388866777201428828968092001114455049733795256944445524859150229364895399696566118975347254384350868588078537271882057232948674279114577744067999874145341837050444915423628110507157),
  (17, 9407018754324835191852409342273179822494799779049160329967670697758991022651605428101167336558285072861486412327328315716583305250158101656366429998518871544043856430854592856741856447741816166092403576013672033738995130463329607855260217073959028236330140349528301434819966587964664337335258522776628640075101610467082622115453360779809924348959919619277959608317463720434055210347637165221880301249871744464623831552476857661120891057882555917535477837245418074492456157404538152611795406749711332443564432056797972054039599229125208111979194478147043914898975975040432293622617336374311947127463112817326787230405428380893504078231231288462347940486202837000583575661613383793341787758168370773476326367612813444511882634473449982372191818712183603975987948320807700062069181977632761346011016386885786707845141410391698124772569655437672239994158556613599209322578358252586715800338898984145011137164126857334849326317344249907519317199003386562121749863640736761110219411513899450593998404904024764464448148808756958127408919146232091295616087231869909854148784286433245261926552845832942275331610365926682289529867040613820558669180386695142644519850546683566628979169562905964353754773328136883317101509693809548104297739832059999346307812289),
  (18, 8355111051305123582752732111050608740858582422996852232409609663477073826556068411074443132111446829675812524999174509784062101409937843058041317435349388586652027530435025871260916112010760322484753457873235820477138262691328144137023752563466685487396876890432714735530247505177477959832338360652242757790817844695780534122514723629672943351478832520779184550658456436178580900659804254768417194039744452295855639102297678965169293855110035425208928265161730299739400163074575405264097007609248503491618612257999114275872791683879580754624874402414351802353255051756467928620821171352066545069290852794465545401949194729059540760966016341258050371252109354637382917002919401186725174127853063404695265483791000583361802796578467088918219226046515233290151075533142011367103030805387306612928173076242071848735445481506333567505902226312481155492363625571937014547260378496932554973733654437581671958999103316329301358143249338298741322466701384829785337762721001688107935588156193621366373181447499138150400661117989644461600817491767091881845308184665485519692406935751395939666713832825689900015780795668466816850568364522705980835598390467640409993942213331787711923017603615207845748234511444139694314880039132345874717919604802),
  (19, 7420829329967355254709701315226080522844489444417732394600375117115482658793535340206048221873973566867957271452627004862365239094754096107334403021617815210182763487731858105507648896875588646432620391354576475019545482225962090807394736962206505828267586545220353914057029400615321834117277187045878239523812731010064591408408599914054101058109356541253933128331635623049971131067893269233781953748837054988248234110737288954430527004097819516712443404075857098665168421019212090016112279597716335272503119123554791282129145136708377802759952789258247107359764673133560788139178136319190841902392265095800310535520862318281134596842087438039285820346948895190731026637769656098499564164920184718549937343634262829910156870818030019020324448233110014538568095913527178802545850819554613905239684805410659375942746626697893032440073987200750208832279880115707724910837770064038434244031562823023953370581361634951324684626446254528885452241383158215281281442290773257166939491766388670916815002806373575084274359829851040506743887780592361458301362611914527672931243180592242332447020383077681146662400440398058393920426765549897851529889603598266617783562788842500869157775153249450836505399168869243214312299718968776),
  (20, 6591020467149089804460286723736721366285191980401144674678755335897121906181860171024827446378061076447884595424616256096854814425732440093513433367969154062317860807574575192991945639945264611030699702319292909646588319662233632438247228823339049266322866972201158053193643455538635277662065120193028407099848187330031139914926511099551639605593682092063183059915644273068975405793124281502732424810490617329146123821407010973380780983952876352871606918061345270649735517902340244298179866861406933854380579523151747623654504246642837679050612227244352218929241394110873793374780413258483973945143392385994394893970806821476680480518794940205868317687135794116194722089625537576881698805000490589561291997996502718462520492967267675012475281358835246801946897404992953230738166999004878016726020131405542765028314052597695467968144943966414602213032690945577038712652014558053044753829718491753164312240026089598134810544871573709885311376608812130879947600838668190335665715488305778706143617879835244739385035988934058961380684356034881661608684137538681568856037804772391371117514471687013199855020629451946701665090377011343026346180225018703081682356935791537658282026221183570547234807695268893800),
  (21, 5854002142729015136051004874221825506631243552770429301964460998621454197963056769524681570231766270195822224872651589848865234893415694210714150295507941773754650048358757673422772004311525591779736247172449418329412449175489024523956273377161403077329270456207682851210141063112842423503359608471563469392251027683269387225129899948150437815522133127631925585442699240317142452279888027647096603505519485825514084547882628258303012202227135908766961969533124023780867755468189010685901409282751469695662269725646938246788150405430097608981724719198982608253599158167585105472702868662663256756599945678468476272914442042852456479619528828881381433997550283068668662877033709609569985632780425282278738475054026311685620270219809017865902582381070002540597826228949556965833268170186665651151935072622157625901893863472530434071739760881964934539070094269917497097796885491666682624958762467541332030056531550129939365149762886236126991420737748247170183074546957356657428858692834886336400893047179903706834500873606372810459810218352733231840473273990786650582056476389338505949668831827299553000794864167384394107746090368839372153726870933047065362074624440691658795844525553403765632),
  (22, 5199398372050970206164746262873921510693876098606206684460220913020785471156714522608240954061074560420344792610585448414321269121135255720388090629696816757358541900665911284345622305260257261928003522605288529612452949788018463201059634959120226275041128452117574679614682324465673686274509279030395900670506781957157766968853339318136295970092591311161864836665752410501970138894592433213898567596374464017320099107870656168036710419123661017676213216189862115853643160428055261237538552156717040791148787397927269129631769377092648613266916386795661432716182105593362810975365022423360834807633336610841482630037323530083124401344221680213303161898378254850435030417501185622851459961548861707245962549984704021172959183820174317962149773376958945977542956259976266397359145016725799922662187439927930190699711585707052986727406537487236973603082973480228648907134989891496007997140929696093269138813295883038491545373878178548606919894523729059934690442550016204683213056498386464837331324443375230919268484086875721046139107020949428691213654344765869573082298607263298265369597462735043825989562463362348232682856618157039709088610553624928803944787812276817367359675),
  (23, 4617993429478609097855625081393831142348430397164190674757661461572747746734573194217855724142335070035774985305191295671004258956362827852294048261785712903188072041880215191094292598321595142661714339337012234814122744829368917762585505850495246183028822063846759878654527742425382058331265844907719580515024893204422482256777438739832287831414453889493796506038344458584089802046131380845351954204639128837243037768976483818222989762287499208257427215296068639368985792899479917189529479991200224978110987145762100573420803048835325012334582436068438766991442868385687880657139951668314072442923867022355817318543953307211353126731797896481795994059118601636926797142994843448574956395640104047527226747260248242519228218385324936417182720846643291375672283469508881081728961317692858486558444201490847419402490619163177265533293790645633050390419733864622743233371140042201761841766392997305145771502892314965898690109077182636884648484846164456231036993737589016799872456381882913047623203524963829779322424944615286872692241199699465101479175350338193254163377201383927213569625429147411949397061426333038648210382960564627856193559326275496967348337233),
  (24, 4101602106379923746968353981717065734998364718985884253129582076622270078665215528109994698090509738918331407882886568322252049714528402334684101507235815699946551346668206003306390359711945304477236871650311027826269578323951235765831567445304766573659114226091553876610345323515005143584090742628210220634599041308290883266960110603077436683619672565703069459724648821022713066926099192603559672006249717460230310476399211011157399742521344277866654655732425590455685328633590294499385254468756617111766917035204210885884909808589447918883122463172855857017503954645910844759300264510989109759237350476789181712833047829033309497588126894307004083337667966914910836991378709663725502489316886067671000758365488101297061901532171167658843954760259327752489124628674958075824357025387862318457806857486060160987310409939308098487086957053606697499059214346404121203432013310918740045789703006675752449246687270775603224075183757672198410999574439484724895519035104578226287872173484568676250442669913617806819102030746627456767830227136272608906677422174706449288730549702388638398065523803871095167293567522913932141889485501918138444682436042),
  (25, 3642954477083238556988098290909386665777249922435271848529968707490226119091449348779707779894335844720261771572449721360569480525046088976491410260200736941544249417737034395467841898794915401835750787645502570835052680762869055578839039645620153206162710646245376989767919152447629005800848071486756065649111134133977095129887773615761487777989250389151530773259309495744791416208740777784894383925917684657774124289838418274173649404813663437189293687311913261102298940436890457500864592660077098486152902860523016165510186994137038590244584061730198036078791144069931154245991200793467642306702649731446094957254512057583309357392790650919920476965766919849481347957937655139774310207854174185157235824707709829893390319579175806382675700230222859652472286050326579980562218827468214105807023673910410176361557427536132118914045047857302343899794396979844808306387997281271913385229653651779069101007285443734927162423383498811576537687419073450263142430224466070387537320855818835550587421051494057452199320321771866800459579958950551184408936123004864890670256770068950217092236886192557804587766917395450293285911521824608),
  (26, 3235593550495275407476022442073072198950747817367059946763681951903266288607994033618661245817673555402548035654545750218721648799776801458159462068661815251494929852748498581652552199677058928876458416224283024638391789286700669795985260280082883678166135500402820236119397155516643985290718071011852790805054313029305569774140303292332156257995272700614910513870407332424488891680516639793866064063020496354617972204039411122233981579270597890778863299300444908477203408483135893399839586320177921028106780427611073139466744054996284809981714739065996728092293907229779585280148707624341158684478872840553308666472516230436768307752109408008494833746148696412661766966939627900035208023560193868136476822497660263586662404494883166771884273745647511416764201186856559482914655377652028588170479196137902001788908557000653871244822359413127229300776706505557551205207162854889016407585715275963599784922299679921515902321563114736607478192470984630848258873631756632037810721638101656419855310302937922899662936770507923544821349542355146720359766448425862847999990836721751031350080873396930141663244987645487559),
  (27, 2873784366470816169542917058983922626261079652557661325495056420092577399246081932627659559913383699420578249880870001136913501332732367769889266899629625687795070738089811774195919255330704519740529196461874891846684515373110058295398205034662517305557193816247043733512251981960165068133288976677797146638017676424576744367464417086617004883142412917014650828928599285374872387845168028753567938754573101868470757597751782802027356413409924330633241956036567759356912643481967840390836937014236039529432854692364534623581998153222167586483972222401387993959737189072610469226912759083282701051594023890843329818236034603731465355181403729968385229716740409571495625638885194099469137258997997410890366057553231633811218570067604338322498965272470172369835812507631654508896622462664117899931212593312622516031068184246546508276591450920294392311148945865684278209596026707710474456817279324684684918136410469689784020000656188778361512666380195553910402650791221490774914619272171338905849013481210284644703303157516771633014231533396283459986169201216779057600264458762099037314172110000699134802),
  (28, 2552433257170975062371558069944111752025498568538480938623218211184231486247249265936708899122158122100480396709583536523024455849326732000961584045440755158653441379535583404652189249933516204016235286526668319947705989749012073775515250482334352295233876189473031070627935893997289761287527843334048154824096845175121601539312036115046768936509538192156033464206224263345661101126549040734561508080020254478070006837191261812172592852004605753957449112208697762388980785029945556847110242659083683555842995752562851120155363711784023131622100366710352496737782266148735079286519967636572721619129495431996109673107353945224028401047090091433546472926694542874673069611330747510170618255449419523939513507606428800530506101538041883253178386871068512909216257644996792406365363148685496050519525158449362233253463282623805609523597427035724934651069977359267645887915515032181923708883686217951862358978566934246308968386718552274699292059678582151456587841587506773715267007305639078268785870943288350446111746427613353788807349780729755373834294747800995662075621130566722900643041),
  (29, 2267016136744159970791974663079414888522843225800612401534727694493750564092099437190203530517700311736053504795565510687014731320965611277281010980392134302121348537192897657026012446593591605568858845017392655442975139895819240024838690932979431286615733726395470761626792838857763995268673555260785741970811689735168169626252335634101580413272684608613424626572311950841057790241622717498848373277686724526638640407576606090257490388989031459812540649841603160211246550430341370722016674033961583580489564318445987165804445328801491993189681044248953849903896798989234286440160486926963566837162252360652141216907231000752814935167536480904580938175874203857221981472453263054917850514412571488505839066670853194831661796472452338844035291005504621915857768096588076769688759180421032182133643509341549580676083401013749163855884901991849321808256284740361655585393267106975085308105070929760809188714514879916026694647398891447757072793928852952604455675675837096941832881488880765417990390670192690532940389663140497957556475921317341663563362801347938605851405330),
  (30, 2013514809735029919082979745186903640267982650604847321355129142841454656346137210901533750452524001831093766813225519210416635649371696813772561031965890779829435520572349521979496408797149530037396645165917119756926987444950645439883656065110165126016385170429593511497344574663492745876396470880753618324378618788307983620891147503602799843927615016165603762455919852683597001901013058106776670514136602676772490975080431606379292656898502015627161827535860051645976991319985645086664570892087857607729911054949133480349566310586621786961092965657230962262871708285426511741333591561461323622999621030759575239530686420375144782411776479394523213739830546312523375194164314317354720318111236904922853636621321451771602077500866411490568183304888323661040526211154156686784153698278081598229912471082143042680393506469875498227330023957420661695969352811408178514364070790918909402064496128089294943997572193524382476991203013911821576864577625001189455720174963199204222047120286746806208830936393449104584200735901637496950448038192853776059906146532),
  (31, 1788360401783185521094814913615526936757366431765977767039623776948545369452854917513061565903503884420589103687895450174727751664239046856124733851242866017220752267446009766303961438923322117671654490719605734967658924254552808177160122272093316363381176354074108589436981807540427364386328157587573974432619516837124101771575111035056357209192987205128708072245203227858768629815796050494797609820363027778283359295229616851356624597413063556170319538785200001361286099591048179070275360577006086081465225880591325696291087674916378209836855570668795074422702029527991748940461664858104695486332618645413682650217392777624503712704130333074026910115383706670492421163160276443674241580532533490705019757156167054145596419299446268496884867878498300547736612478630067657800178436117544281440116081063440019293467027007877179842323692923497148902566491274516114620432557235447041598475173860429752649972568397249238659093222927732516260890792060235105095842245904850967567649018675545166589138994962745801183185241727916009237504502576247),
  (32, 1588383115514224038544166634823535495868557966006861807027044991386047709513493452011977099677323134777777759247313835233758686163611523815158572333184182730240591194905917488638730565624197236677923727587831049689406085109094750351837970820320216054542364001100652412729158652746749741075607449880521254951741638999067808421390964718844667674629885991657207348235409756026567082337299731178474121985000282448756964897889936609200094437564221383199476677644848554941931487807944955404346904764606247437582247895006422730139157061162681876555247136020928022431809475248160760449682095789762335600364513901027407403902001004675762624375885915992005152838379527057796488185832641766012574769920488460858427845407545676061690475514618611803139463295239571288356119942675416710329924612700619481526155462933463254785595659970370203488117533314658876493153734493273551456529828355671383384471888274698624966862223385897668933275570070895274861670617724700087019364698105342347684600939109086030816630604500570959636011303911264879),
  (33, 1410767605411123766725043599933213695074571188022834052853610667402825831558400218552434208638462143240111348538260946167477553871736440893033535113546953211847368931387314732028814163068870058093933938087081817638681836495701136311939605308769879096918326834162378109730842574477518640216121488891017849035880119464188284951762827359029760812450799509127250528203055181411669087677337248574611318107113199362345750240977094439734901945534922168352598805745490161666088140645612687507107994046584837504435426419209997874444445850097215064966002803161917023657662042701324055356167646976603706422260161247439573375068298351945702598082398328577998004159103223528894275407527831698579750188466319864347151808720803167636638025431020982160972726053283259510896872264182238432373427693240222606232384491604554480374394532232979306826898525193983294413788260669929259122397502236853983791642767472889312766259538818761308614582520746733489214470769167207837129711980762789218243646967184784938392422707725224916764),
  (34, 1253013342338784941138199925401929092830991835769547678718952248333546276605236978686290340229648708379890713189346444684303961165006734570523387808920098234977441507088653490705270662826249787307197495701381874753561749322304266945355938717967179461733710759400552222201872462085252725284613106581634228181041213839640316222511039241855648530194466696665011249096064944572837255555967582828338924445071768708392076056013369356346441199832179956559288965394679458036979444158035357536955722380191405090155403701730661646662088921083101843954056568701436114228336772990124263803574788599543634438497842112626158596680204840726113588079133103201034042243574661765754149544040847379597975664165407483619054351074606955127539857739538460956314329965067145672761859534036108570259115638582746393609785262553650621936317179752336094689485588289154772081233442176599678244801774024904371964262466929448635526157049490570253380145786507464616080442654219877694146014951534251228284113642781511904838512),
  (35, 1112899410261543091131791408127125285579573571327617169850511520024988775346048536721076325024870888547545127247284697422957705505297910394110910579097403887771885227585938504169842257169776564702953397667737287208413537046861090698731601814214017011658762815441216171582223744420675675458919058751033033927822484572507658594442328317624551708207810951179474271872184762635188634595838249052339363574710290385126336967009200535952924621899796859883053235147694020652306050919662709278204791245652696346021524886348457703625436593031372410287488607149350431499591457938289387964599842520445478439075138948767814048011435716318725163993822665869708493331607138376068191287106550263114627161046201064391433869049310771915639796942964299975042212895665764512334372437275959344989421226191275424178316673631698776028303326368749617378088107973443890875271717801441864014267835055924806880854382365081158091022842161975077262526358640021233316623766083003545347762794749428560730604494),
  (36, 988453239491249513682173863132451679797543133949184874715149486122807174444983231172408740471498850386318541575952447782590928356989865527163240680353637330111757595634122943357764254283748412136613619894284754131181111919161585695732666045382241343107569156490700736603995417384780063403086297766457257132911087427080223177709226368446981699486040032613146288370483581409544223137214092646848228834194800063441936064363006652853921930229875726264358544602124199597736509029859440289855323521410484687652840514488061798704213167028512995603818804391171041001130618172558680526803077893000892262270197367610678851897576294991873070199810502640461502758497418481984771845289277164007887480088753102356336724758313951047505292843144741775686569252197487045214172335711621527943988830984773497439658699773254324074728634671220842508859636893016678288439841105397261209130933991549177367208519216179209197226223137984520408830901400619631058719523163995663075060688270),
  (37, 877922836198857315487212272483142253806004424968546679458327472669388093388937928124711126658807206565882696495717223637847432334079207064828896727151281893084389495177529829278577354161903536504425158791282567906469147632434125370135413247946585993237030916304917561635704837565431542374647236775605218068104118087756353957622893239236833952569238645502401702887670672489746224649656549331544621322339290402765027432118257165307128563552880250373631452063538538047285610119477211944199916766032087137818986365271742119259428319577573627392263147741620368206608775953787157551973961873684627542345602519374966235775887946824963248199660607752428939436532074352092967864774872848319761055570175233296756855592929053918357245302701591564435126989137426095814398821747551751343520341533194285147122888206890006514367073845299494188119995633755864251265829728495605276147230459269354114330914564699404693215586100194085100332683708948060805692479968884),
  (38, 779752117273726672503247555137874364269371570170334030251971407100113104972557895331626070916397914828557902779281609580333906023786863072614960766944873825045362184376177178155402794778361411366214222011466005298999984162434829498737683072066490577229509885315056775032866396990034059748818517100837452533569449548926896971268859015477873265679754496146350042522637590533111894276572151163592034666788179203129464970820005686443677105529504285102111375538464614352752888678145013732942354808428593491352843360998045860381960291021123914460589765682662002990705858997264865518911611381697857895918598124038695383181126360138964323394946279108686444285534732315326091195887471909581227096268212689920283189173752359325283019174402619321673893628157208785530017486664803333931614384279821280637960665526432928130729639876692315035878601371717308881548612708291325482475862337409483894495630117779582611799867620854051735963788378271093),
  (39, 692559003278015120350463720977556521689788748937562925977835651197574586473000280033072635073350067471508228000769862185574561469397358198877786864091284803071940957932404270178010873560022037763098455022940616915535472635860939582225105488178908220748014537082044503154022034169908743466469492533787791949894762961161951494931267686407231893755101747562862928419581866966396820303357388365909356459262263889151479591583536914772562629252786597688947244797017950351996029728342267247384225454227873419137325379068910378488179755183851873672744390388392705976729418105563774480814264441658328129047279692166151499737975166842799333398279143291662350089608762096385626041497396781477041048211151740151433763687442610240016351940262263708785846998456223211495436887503131667695478203732546518937388283837662380711295897763725842273088507837949976488689857919357201508639683612150019129135233582047266418771451927998413478),
  (40, 615115961080566783456613079462524926472538249929658793239619426562909447794825147586389838687071753458463326567955905429533819385935943502818913103439829302156056899171139519825351389950243271055735942905559090602192169033358223783853256697761264268366604527256554480959421041773177014005021332904252447802949860272958804204951411799925231980441695202095642602275820907188391653369961571399797542934722634229883384546048911530135605792690565667287991038175395119227043969056590890332339081248668078064945440255461386867098404082467938839798042492860564049705265315474441789655055584123791078521693043271052480739503329173592235912556961414103257539258491244397648992415342593327549467192476291313054630646109663346763678597341638199909531360441393107686151576095997622481134873190655969585082820501960396293745594255760404951297903075093162263001718552409727882250437920570963972587310608011702753275598),
  (41, 546332722244850867220765604661506123049705982952787597560253300282914237140981900921316955221170754965705532850556533458944001238208048452388499975867852916863263515225809833492827429369694066673066478369729709484350909347698193395364218909019187684631460993182201051087450888376901128743822192174381250923999347040272454923184643640323464297409459334487894604380164159675181001147576003695084411311521756869501286366398468511820099290508929762031350795036310112172147377484298626152788607996912336182493677963480069245012666894631954060483401757149014469142965398483427622877081702673988310806800519080699113622950104765066006517208288889707168643585670729544332755339147384408089143739085795707860514562590259272271639284308927227870712158210113708763739497811055983324943908900841053543521146237917928228486349165407113454782571433285560318578529217021919286708055098718909441472462048),
  (42, 485240933873900822157044654615752605479003016115001055475985591394716561911897128529598325151667911171867282213564841412792260075639667326122266605287667403597555875864732714624954834619780945980665098165599567058095405101481469372082987549634883468652943818710554606211213132141109615876360021348851537639113807369654467004307611773408106029899448757154531815267107723957552155224655681733768230612317002730668742387747650195130556230303723689833798318993835599709895677033416728182814552851366315521687352112383530211748049276457599507850766327434658108295419415667947670719286010516372785068699607737041000734266484714068402070171490671994700269839612728132937537950562164028128522019547302303289945911122767430897732955427840720813604548709299709062574530776035621983740246575612734487253120650306053969454998620689947257921089240853081426360532063332991474458526172861),
  (43, 430980525821934964730260996029175953945680064549976684985454238945734566630160843822521927329695769496053143418825216585518316645687328195866229198990795527431864413318090108760170682191767104978086179672568876637415147802498291751937443294680098893707520721426800105527291751713717708717059742257111994449837372354997737229365522316000146984397777849671724853490403316470061286526814600255337665142906645216863806538415708065570771610828319303486380984847419076575581219370631413024315379077010714214404234101156488134694263728034820716618936113236050747707067442486459142994857488109661705890344812847813998512201467763990410434273278558360339723121092002678545279188645594522399132520393027234683998238030993815554083040725242943631463279706030802774245305536749244041556939055329272789845024126668610592165999268651153929014133405132127925903290783076420),
  (44, 382787602346055893236945245069835722945512514466036140019684464239476887538155546075931494396187406374062539962826424866990275694071511046113643929491844500192818740065296633458883891227269265727941798725088430803256530706670207106020308767286700119009007780857729333914972764549170801011596616894044665068911093463021527610620095981945526232608656968718521300330059893244632567842616368451124376041697334914132087479701722578731455091042824171626939154852100697535697314013342461782880407018319843521494715620338245218067822746899484819247704248201520773054793335819312209291726289911334401254699638361070434638894830978079065938180089995706667370569021953658127151121638736126207940917401413133624272599094089547350709611810273850256485331110367768447465846206136762313414807865198848949395229610404612187487138866421878499406618627954490659),
  (45, 339983687732519269237458718921300357760820143822186949674292470695876799159495231501127128499338853493509836895385897679773384819130946040460806999811444566823198253104314293021692229587687411678428946388654203146663326821222053267595427371646298920524115807125712231951845915453791353567590009986046976380009669156381845542364197457505219018240182420950839399284201558584922253883818911287680255254419924812337596991692974936103011848230539938750671868632601405024158136758256499021892040049981100093904879986589390755394119336119697825249824925082365027583687114968754466523149887384928386251217011785856282916392724822337893265124080525734992207864953126826492366543677148102891926000396723027482426893165342949626117714858954368539868477284652300602635524232111825142670922181613996484989121610353933753751890315126729132853),
  (46, 301966174494090354203208643378401247068506459442512950367705025305427034766080593510241815542135158907244312978576580989824886916500284830868847086010489246342653587980784776448248936231143243490013268915485381334633487840944074382557911883656149562501614088728341996180319657393996865314575778321936791996882033218028870213089378788568904786436472555476655700143248727683128620579331037494373550377099809787871506688095607622088987576550724887830659880562576112850379802135627023359803514264627485393609996780704569212870109269186724624329823732824598905982914118099697515107925043233041060334008378047516149170457963600428889483130152425951021680562294315258468894160741785789667329618906960150265623790366871780455115780703946731119438835055600390957563815889342171734013582232956047037851955464447127418869474),
  (47, 268199839665053433715521296835641326612475224474112968299362692356784869690916997935008682610912881045253574418557078644079854532283625128700620017880086875130609978888926638259801027868780217692877187133431672680301596197885510708989807128816579684999112429657482946955065558205438839759353092014950142728023250447439379045012799425155054714382303123299062099024265221181213156470619779959667274469982793520586578565699181633271212770438348149926641026777714584132824864244903316246149981502661208566640220574559972594947590306280560615715006700469407005257890782451460225230070172715550617763915061250035536159466633123235567866198642783868208151808372541944264907350182318672779244826755474214641343257573594225064512400501711399281498234418803675704941018086819072307150550902829310554096013628),
  (48, 238209309757534123366725695123607470794161339464165800336761997920060579252986044541975512065175861414098330353069807923846529500114363592732324516022278640732536816012511794700159699554568939956326867579749463629753420372325996368279011629215382790394404044391645039264208256738469183294067222051729601459629825351777146657453795278821013027623730680958059859329440818787936490664691623264353679025028968720175576820946349704645026510313266442786327159174319321266762333361488459382323750365282780565255434747289091085072307112541796766880556277326384464021270984436418627263063308232783643601282646288853591503483364585313813134967181650479953068264147619053977453944168845245664358697139537706150151400584796869813077594601254903247802979139820702542635438438439623377627034112659),
  (49, 211572368298304279369693232769484821526405705679750753164957911534158083192803958950406874213230127688274645337210226459764883072583693701653080629046578494014624885973628927934435085208548075677640372739355517276783184892863219933151603255996575586025622617757459683829429262782265245961052764740381468970785156353996742377208539521191675490654992428285561991627925405048592470371524364940035026714429922262735950592798283008402173704357885879322289848262549958996214439505427102756322321624402293324802212438756620398133065517963893598743404082342480882266470605190089470510206279410663788502266140811485660525837941927940091435688450291589002555126848225107406142967420518375722278614815467952376116477040890279850350574494383648372414909746637400792581604716674160),
  (50, 187914011727721886593884148417170398257162804214407574158094446836011897900963535545256696757679398207547456538676383169570215787678558246458938817345117008938862724420497175133870736547899740595785388343260394473255321108238254446612147485691569793327381886450288625344366829746547702556697502369846491974997449915019064089878299067317096353507157598321735761128545347486764222458413835157914737029716186821243669835519313332881822158106868508128238653131261938039015793172721816345427222840699279175937183183003293114739489600687424063018524810228311077876544432764320932892247881439707792176459259247884825431363303983767164544100633209449811641226933190818154377191944364960475700501216166749996716420938521828826048929363023979523798385067024642939),
  (51, 166901169975553911357827218027654507925563490828021670048294047025108700733807323269109330251806939024574621963953954255953132852484780197044803232607601180685187977899670848840363208329891956750225321295916313625602458738108265940232592279902395106985570807012238949996672100194861540145144436129178335210218819079831992134526953312535400978544436941342815816333492851578388862661826586644321307989128316558251202171900878435913234109209633086836550255300701738745110276637041210030911321857747586516105836215897797902046216060038272435414857487057885399367831498290881525821914596162822318258042714925207961171982035049176163279317377707333100420059232266908118332160039549163232178547677671201002000393406475772841897332959283553634931),
  (52, 148238017394934164086458603744804868421718963729816788183222282457909922941667237568126477121922711737133145403392904557597861105357322134653025017487538709410302027942756006945716491640236213818139902372819409213042896395404400293160862247481531652250593926957442624777049043036328635537307984476979824839719313454110670589569101335086711043767558170198894751623400335105529785219655514541758609663215266163823431423289494325029265618259578711847242565839722460474381255903239152297971422843973460692914683990552768186438501311052219664938984983944945263492943117978780758489863980750361787774280745613008344700050110761954927695609718277743371496375395896040761253850108198808606337940046457494697409090530592069555495810),
  (53, 131661808029367028372128651302959607100100459188198135032622631907498007617586353433282227461186670175948359226685887627221842608109126043938374633683739061605119964628202272450059381686280383070592352011988963262564811646145145761724585884694758936658039650394578125483981474046692667518035215351931652093160328600572112016234099864027464352774453801458076485951334677515647927312719295814314077036258527334523914066011578763140841001162165035117035639369067112378978083837896199203126285936063424117489590923290965744629062685945951582467144624242959464090481692940239993414071546848103478971594969435368342585944277169596210193289017023855759503461950200716703451346425309888535361356514083982868876451830),
  (54, 116939176590377819544410146931128471097610927425806164400402138095044801511541594730357529362348713502572253859290415190190346898646975435409341982412815983649501244800796653559264996296763709392501275228898029767605276678451003031076594261986227475382637262575980355561373484509181606406398432280629621215415366983447655595905124066036307078859117001420708813101924913715086372774746851778785300580898430191440938812301565820585226338803672434900451763825039044854713335462511610714229615296487343460243531083511406143617722036097081049108204693872518648902152536626444027717147489807333583377598889376602817235578891777707340904803420315326183975207915952981864168267221215959101964887682859),
  (55, 103862853065076942037905867621993316381860656607535973886391146355996446521804421336366411426883770667166459034316869491855050917030960992986878908279831930272933990393708397669773246681963450683388037902207795914877684837122333764643203551134721502547175041754798451012947745700408888534272439989153894665165544681616758249110438785062378065576005909703692144672316069944992717754970787917425095389527640031264409464583452680685378453388235501277885060077141367750333928263165663394958918032579334550044969646399247323523846139037014431092215881568078352717881565386887713483264915317658747737415140725723180701086144030572062547268644008026053097486598029178613958179403746554),
  (56, 92248744700886674359527602686879610288537514923247617663035374275704465487283803972268215356924973369481392363849277580565808169194079295412323340265530140312843442971052524856441204346299608862881548817109488671509457201011218999940849016237341254677634187465721389939075459368937112607088432402519337687179866241003590708107640370446096534388724504729471381957345662054779258493229258614177234985152690218660142678969451297869357663571802244074049548424867267495349456919258759937268534542577172231479913591879548133122329393428566502934211951998368359379944516333304598239323200431892836351611649882630673679989545034469631145106640736130695292303777430070091),
  (57, 81933344287753245976067706967850195348805602296447085902538185330710923422395201345567896468699783311872313580290368244369002889354635563170748989454292176639567105241418602944638721965439264733456533173448804438781081617674604775208532369388427857766578668417955818100223202554514294642596236700568370480038103992990893545584582543204380277407957735476572384458695688818338451197448772254463272093909700550136325562717058714150833717807676473620602512116062175542010216458362223894144289509320522817972962887809562782034490958326575635984902326689841705232758992817988620298307396204812391298452721122597261977174328716030081550593608265403177418),
  (58, 72771428250243348592665302803199709068373003107312015469402430977976358931491853231115390245692423017801553895717512405617965936761894040473709398691990934222113293009113601560226005123242094744895390687597379308900209940915713725126796850327383133674830542604600271596281667379050874947531377870386558071327647957923713376759660105043744753894960418101064623768246630029794804252566079199893027014217057357679917826015735729881734764362819254143677282244751233559082742240350838372950971895063340219041594911340464073366807258441219192102115180996056312446688582066107386364186787336924344149992193241676086156129572907570057505163),
  (59, 64643751317139873498482408658377758109972051215172996249302376320437543207354854966847094166892403990291376156384220115863253005513972461331569172298404482580208286684026387565317160161746744522005431112769378273123005638236739805376453362784698498921995961788615613127211547429133168311785756320861715900809874158920283004020021067788422690321718129094805677080411800906095617908092255140289418395762580419710320271505787045517646673575341621562524394599226439638066184823851567073289685268793668997418257479433835558440733932791222179470077159529700301186101089747522572784286587018781014030292132610862376770007616),
  (60, 57406533637196397992360460080277337191254730200191461121476105164221490699058416657093203717070770077565642557373098944194524528266147916537488543352323088811334892543708564696358974858389345655205772208931052989641921518989944613413884952276632600563298905775130514300743466260541219004264916191081267014556214788815304385322915713861536388447936339751714169002387151208359422478530421952234347633877595455699306708636286135270984843701933565545954495359789331650345091179425489708458570618282133549772189461084661549930056146944772202428734835778165380157305841524366642769738501441562367754162577977),
  (61, 50987245226321630889351772370195763497267282142601703784682752740344399889473956409451114454952597040372807128437463216616863949392016559279034573958254215304423631631174684844746170546766128486916781293037483279508413819224942261169492871454950660128052844791104699568742983257462109123115492592623461835212973157819954372794443723361637963725400314166158285188917516179012305396865492836051234065988946310192327708773581701345721528378907168567633617079178542647352403108379701377760357067687949227459049245152653122484616320242851630887402072225644552095885401922881947714268941518809),
  (62, 45285772233727707427120474863029133267165911692999449979703898397085500008262832795506509887994796254813968616415273136273141643775343611146597018862539935210966975958194739764123726998108334696192094592178516387798270645443906900908968922422027334094010131348477267680880334212164244696879037459272107428582836722926740579654993499743679224528698876137316063231543151846793487900680989348901158719763462972369477283625192647760884429777864524293452593523614910498261206177593170190471794223152413208899720855802997456958967951796390246308103612992269336285911655576361949),
  (63, 40221844211507343706388208719202246198891446096768685123392559535624755309457311134026477823844141251102562263659153074784672717005517293165109119085498230176174135570335096906720101474359862346761891555297288976606324231474326943050132661177986382755871065323240581473334794692402694400072003280723698356779188527119487600845448381612047669888089887718352145005547773757211550648408571220533328319960733007884709390119296180477504101432827464688555840728628741171816928452518141717733076835765054369197436227610334888787386773721718668609542286438778622714),
  (64, 35724174441849515024013020444536277365038830090208981972078226513275690150159024333397444576443561273527460162242429535571534342318408701204809760555552110586071923448620179544316382739734777128581433657723978802551258138347433236327476505023164798387195356548344083371241815958431027399760598297471683146306028243192033958563620411108886875190856573978294134874230352004858277200841579900505747866595696133701208388518496154238995504671977861765468681729067878842465853245480209211144381143729863378626406194306531423058622544353897357098106),
  (65, 31729440655880132070786422604287406321396447728896251109022758442989670811763563121990496968838334001817397591557960112669377644588080999606807311382916616705359737867269595584254064907636658287495041482638157476872140528730746044458141911179460031094714291974167842731049788249567469502970569882998482711578929314655460198994705452907647458509987738708413775487567221950952712433863626603067362367880291541955748873589510362077034395269327240954157333230602380050135818589395867067722236338850815712085105575628054100889225156),
  (66, 28181404185145526993305403049349470002543826706457503837411621361419356648266852154732920366644054562879625395133870479569192175117457496462505341920550562189624790925194431109201217978178949697511925613873980435058876999628092334021280079642283074783467709404682208664192996934622714931840206112944660048457024358133199413063525085525131394195632486530138995077240569864549621293389056402346129735047378132951798284807126507338687305244373349174294868076869285554100093068412327500561794612401657669339277218485),
  (67, 25030115309996349504164628346285423551305503724034314446222783685400086086306091943296922264259813481008048534964710440156318607527436290375976528704889320606499287076735377562553285455332235120459847700470332008320869959181442767616745258361581373489881540178154702716413710520518304379218108817069414812631471483305770100062533135306048070002282451876007945290377670501679814688758571741250834459068483574758918349574537023846026765255896808785107455628026802148993046233367176246979664816136698),
  (68, 22231215742988874148321104770367621858760277081982639562885825365984617812485373510659364268474233239469745496146043827548311955030145144913854916802193258171473223141488066654602436086531909828040926235332930405619161624812647772121557707066173440870282461956043969388894581309362740635426169637727678717368198406860507135793771874824694657416947195874103805936545335228447304601549466544555238063175857995825142830840319423643726895884329993745903965622907574481588442234621777785),
  (69, 19745279403486105975821324018251230268498610059484807192590497329839779037022802265342542591566096241990415109459104917774790882774107120918780865264112888913266061025231674573742522960522392973133505840022295850186674232309267811396914212610604196573464099615553629399467177501379188039129381583842116758604246604679515047002286900863172816925064653009621479510985107736651698150569103097291419092831570867017015600244743735787762130313851347278710832894541563491852),
  (70, 17537312406676088255946513921015570106507470603872091176208310631618162216036787694701377550184858044391530932801322646333259701920284091516393076636381193496352782156692914390151466425887951605330155482247403635330576965314470979251507517272223287157239322465598470239511129104911091367845794257401401216835451614613639768883252462477828237109157276773543434335843641084330202683997526680961768893461245306110880328764547290915135187711834990503292488),
  (71, 15576319269987061704659767606611022033824602742182079373917058355741132154179319126350057149574044876947085807787002832402284529228307663188552131929834160369321795703079584971906847100557963453091296132637567419084465105478603479446024757435600114385234693434113649669198978904356930226784080882877732543924627335527101237915850808382600338818562423091957610683004039042063520954770453279550307421940642762367236670943311453095621960919),
  (72, 13834532845306185429403747982617436952441490341399989891214560667489019531096202777359265076790900175125894534778210689681275329590941408151649439599120443704629527157664137769321997715314414650200573704068879428598121849778018421752366925138017741107399706035679351986225345879390990412063146015026708135818005284888436526699759011956603309989963450165407239529660480311952394766494004253647803060631028472400535649612449),
  (73, 12287508266010317351086607010483343028253932615711682948379438478955217469742606349936479603170132322784861784044752915722189883695991403264310770863622095594517464995944657472776243273556544296608495950700270904399092649402323657490101554839141579847699774907680543205617982309796671123371879036693964203804077099152250588712359747731684610693323950704255501491049234129328334818997289557366950882430575710),
  (74, 10913525147281602369099001584189220984111346865201928829417793250147658884294287088699164376715616409748394802582325666162448396053369132958986849384885784510936836240514445027506446786190223318508618553311350434615662516082676373086637543743006801839031377796521924285942152734857498158404960716238219269667913171785096303610122517226381973619154590358027576607522175257902370090290682995794),
  (75, 9693241593395712647982599009701338098573551573779597730654728139660845864697799976571401338227777508078775487146160058373683115426100074587192194310395801115918452788296324007851158576717925905877587257440523518591510676587394564410001917099057996182625699089790711120356236498078088129908235311195473436198905394493868338407048364029641447373931252399217708747387474796810427),
  (76, 8609241699750173986227975772166398050773984211819096243584572906173783341222516046739909979797230321984491055882896350865466528440177495727364228160370391330921481433258446727882070964232450378976056725985604798459840868351349277395046737491108307105787264850279930852754340617694573849190018950169135148977044295177465749919606942486681749907371790885226728908),
  (77, 7647971524088802775112800499714409938709507414864466482984499341324371451527075390471104739803202143082289234555880210769779388992609107552596130037863464822724709671469905278753200659232069184640926151203171129398003477209095436877708575824115113590702067366085070787152462737287445413077609315092433685108492936572282478121993374906653856516296),
  (78, 6791492471978649652204644567587671316422670161974864152664273267150579575250311283997324581217011573909569386743861685978691491602412826558817952077752718845366322770980421712817126078989883437994960910283095112003777566712947044777439521477951985501538670733890867121708862343656725979799546528036290847446908121693450363002881616),
  (79, 6029052505462815498753032105555022738669762558760606341161175079677612464773961962119996150485543349892860536767658583606053943783660473936439539313160040517937277837427319027172995458860521787156992801075882404934810251670001324545991138005703000405806749571363791684296366938823391422857522792619924633790709220463),
  (80, 5357544083835934980051813755528908980921833675349045843449656409143485935131023261037552448882663118595725598010855576970101609216523254500868593909304818956528103341135442791324035057580212262179582168646923670968060236856418562816435006350367028027297961022208798969283034587009041332929092222158091),
  (81, 4758454142126334895061009368887567579616329352252680214175882277429699268113095521090439266735404875837568874129081529127598348531736449125027650506708500727918106922017839387844738862035167687452257018913125447975450866788973579407556110457725433305957716958877629482044821175137439757),
  (82, 4226351420268331789858749624862612230833909170560018930550614491966986356160688335560649417038943243740085045074942788784641312825730008765209042265137278974732460333258718982966066643427238585466766623466630766307956933387538777544073130806182553773411146759843013820178),
  (83, 3753766879477402200480664155394270210070872060976873191340109594993282647375922445988253680055618101158588898765160336826193339408694547170825916356221179035996299324154996555301756517957585214937769885312632872480099746188021623764192782997849044765044686),
  (84, 3333985656238317796814954485622578767815526811829445777713876836311703531603237302617666325758608555430082238179863051218945662074034028626990975225118918142661747219822772486159199689449737992987169897453362642140271807950262847736753311991),
  (85, 2961223967515513482850271474013798411311286262117941547765756442085437500944604166917280222023881707446159436117394430673041134147649923252281126103759786655316313875079807509533997296332255763191047963053499541348525439021713),
  (86, 2630069342689559803844953018342011056388051934954818323108994069756638640030326107595797334513346793170537394474350426419896020564318161457636931856115972495292482865791161399565037923574902640596836259798797500),
  (87, 2335950034882679736544894970754198661822639411528531516145938362148449592255859217006353643517297380308612826839233470357333383484882028036037781242968404417219976928519086084858156642497529874452),
  (88, 2074784401324777576197077178778662280524861728568093450873765809150996385343291277577276994805005839345013170036109065315679078698259518425531532926827553880640693003494455568979791),
  (89, 1842714610037946035289592685894279618077939977470727741301412063922087810771414398104099749615497507872745090143394972010816255614152156404230964450598779890562981174),
  (90, 1636700561599362010363633200801353301260034729534729179568223913712814895747411214861725161599651718521103605194106223147585751187800295981791397358976),
  (91, 1453696246226155864222943109673994849867473936841399259419062722652868575724153589380201288172062557433213178132563040430744185203165094),
  (92, 1291121585833099829228445628236517940473628920563424270596108796455515379329601797741453462878393444426216210191362962470),
  (93, 1146752219652158611789182418617336139040289371224950487188955233418405651749232454964289203190483272051800),
  (94, 1018522786855008159420102313167000505924196472090809138838052856812212376572902917964450201),
  (95, 904712537895882671592556502140579314335563661155011452265261961192259037365),
  (96, 803465900103678097813026164534730862532317505623377971583887),
  (97, 713237384900359104382611452005177907299900603),
  (98, 633857367190246899957896382572),
  (99, 563149639812666)], [
  (0, 70623351606968730070150690898398787261888284659675356461305420131885102392318021831812719623262805873372230415705305459757117579900880112938683181639582941511662586512726507005209373058107654620687886909016218003704653088524943700600917353664765610367558604592140045629456492736670465376328697431433134864617698248608455244332634642386293334721029063399614316184842967897789920631452660560339119776855937242942018190658099416485890804886230948696242904923507807161462739343834830653380403906200573005818651960135073191876291931472848268547982433789670360455793734003168089445491054149158646477752489348891106203349270440104236270166811154304206729647522245015887265508081274144099470451177545241206670391151221367993590357508287859522588921341641033456623087677011074049245526216242612758947546991990328005875872443456459461435687793801449592490745801526337675180462001996673490535596999994483996775907240225780028873466164595064859308553373439507946345156850597042448051419631330215562178134658463196402073459655815455491859369639644244318879840788721874273993030727769100883580914150732781839150488852682401637987182435857838288827094136695994573915014939918500460211829132033320116224652521403726351883457159069425579182937542195862957151998733587954994545243811202857621458860648197915045546201875485965802607536879311262248924886271688763939416267056060990898902389686075713096751873217698019893205503527834201705701142209170929097730497759808429031487809443292938598896997304423533504877743227777252),
  (0, 70623351606994949595343208929875975301548138440741989221480177418646620432425759955121913440214460247462826482551801487681347241388126505490782646065303421298905264322897772233876030079143051988652507117499489813622737324422840970599859382863346917329237036781256462174529082666229684769186670928580875084732513852714154251683160029810338104260790199781215683801611166648244004278432835779997438240449646043873384088602607707013121292494381919986832434470843389812348410991117419747427036027933701047321713809249074995241767594064683223723969228394036982073917853177652524386705950009913305088236927576801471451047526893730209642605921761924430347799750008406906570194163650629899897525310024025978137443491563167969919055695122510861087588084871806862165973721471354736993956788003045337089732991455184266182852744939722574118925958068102095586782413345259092995601812156722142942131100647237663059519833449076693479691599327777832734120073983962556813322127934627211454831032590947205243699917717231652515407051125424266712161165603811635412462960543719268710159564901903212820590231453271538017893047839471325516163237958214686006753570111862718774885102288669891184451953056316253584226930062982108718531842807601110416863740965998754522159902135612748268944493333577535379584313385116839045098384118723493953811418444783279101657326140006056877392494545443419609894155188535214227924210942496538392143822355595736643525134172222064085393551852402268832748591322170122483245920207315611628986666319872)]⟩

theorem ssfsLow3_ok : ssfsPlate.lowOk (18514792279 / 200000000) 58820166900000000 ⟨148720463433438400, 143454398810763600, 750312860339781900, 574330176000000, 1292242896000000, 587365483125254400, -3630143906565371217, 0, 0⟩ ssfsLow3 2 = true := by decide +kernel

def ssfsVec3 : List ℕ := [
  10598998923054412130203264197503599338091306072517086257128458481008510460682235449898856979044611024259204953588765753047800001875209307113294747061949097144369087283231737065388811151980743380365926678577418430270292096463768542001208654353069958127719097613033749387239629483914783882053453647440753011885887188498299457917393438758126519669315145609624437110903945433675750206234746663627790211817074512242642613087767546798859259167799375649115738265154547857020044528955859319380459268591425422073433340051064248946827287864853008127684523368597510528799877921068392505444118425513062165766819359650797518597860317973613518178078814119909061053315059076727503078377090231944953468458467371733875885615695419963569071760847829050753398265466750102586628529708546315632654991179355758704018931514914428491403661051549467957875475445031578255106734630546715038033903205038039440322843741237784410520374617770220348215272326173204945146844845459095982852620736381076045635723008784651243710611911185475321280431034840483953643834337193596176981586477296865027779299778117074679521371413644889885982287431586095459163012585623952402048415261493744413265040136505941543167283397978830115706098789639004747614760039930570818978539288250599814820325317840875008385318,
  10591284453842986345359170424088834765446476500353501532548643588059904154844325365061052794463185964237424897671157019793026335544916479973293303747532671032094057609540023301256511120773432417681257337302323872591709056250892359200436028787358913611352176716723049737679035483660856217738195163237303741276756064726780905331192923474153302138142912850157004088263563170582195689313182885556627103766808170853483584459489884398158088437549812409810800773012622057811935700858173907377865316400897622174152168774093107820995163104338911051298182992725426589195479631665985176245840606900431361677702580287346180279634379029727214905146163117683453396051378446991915328701199596496011141186212844651031363337045372760390496225114265313522012304088567143728690360237567792815408119443168230825046370692557481484403766570131051191202869624844377302036734801598586199627512855270401145613155194000783966097097291208662485236662940842305032377270275815119755607926316008329781807766561668243368070468448788641432186097776411681895002172458748463646331409033527568586557558245039185552050715516389577603467125668879103988237611608420998356942797123162530600358080402897497295631828905426465829465696723795192722678304163701558314923627361636783407435228042696359042690657,
  10585494482596991703564971005608711925679653973955770114240616149600189192480211219976672190466647108825415846547718080316200033361877134250044494336388755614800858274651692068552857231816025075484180255770858811652397757894151278061855657533422591917101656961876362382088199653332749138414313385501472183756527442580575867389937119389805004294741885411394727243139561107039239448620318306968024170328397757262611754919643711236643443743521879563653649706640266952109335310340638507716468813187945640059288410855546434182498213976172911583720972314850602435863985171472606776578089167175575453927486227501506354488087009042760735901031971666155443420296123695801870042508748347843420101467006024905604455156191618126107357178889414308925471523986756209125403689969717835084338073257449526407993041399656838603905266750674213016351949043255061293755676171040712137548592491166291849106518230476027886701633686069243577456634929387348806942894303961715756904358373131514028514367180427218335430929401950202897447182066570823906333626073406671125575747679899874458921154362774726510818257043433528990900395710145976651520857789085808471692172635281314371574669451906657127858819881536841467704820193280936736070248956998856439699569154763940976637556278076912014855010]

theorem ssfsHigh3_ok : ssfsPlate.highOk (18514792281 / 200000000) 58820166900000000 ⟨148720463433438400, 143454398810763600, 750312860339781900, 574330176000000, 1292242896000000, 587365483125254400, -3630143906957505663, 0, 0⟩ 384 42 12798822168646643660778488333926799532491980031074091606398233608245611625788619346395132682454575925566670390 ssfsVec3 = true := by
  decide +kernel

def ssfsLow4 : Cert := ⟨355, 276, 53, 2 ^ 224, 11076596496368949848735081219583281613238182288567761091113466265659300000000000000000, 125030136426032202744519312532348078007871909234466418208576807237374100000, [
  (0, 143862308001341313098603564685094158858261131813282268489558989901410833618434361868546646862605927659886924433162427474291557937131705555150898667386836023505310680180140593317442012796973983437140817856730056272683456631994736591075300461404796907169585846072350135786420947122590530056812231839043543096641636320209590939341159295778162370643060103146784184180988468877454383055555241341047562007985863248692625624372182611512182285670205782237834184428126694800516819503887232052385778985202318042319951741694548062953622320515908729182664785459184963896327888308012870598968478208248236660912316776692600941880349618668396177852454698318875917833839422714329161915462817542078916318703005618430947333627202615428377311847482930071507165276573299569667848996705118196599749592198069545414991919597269645830348679280786405857688993714246831682296015818338293316456993189672489088684464738990360322425948811207592917140121375304721321145506713109989749992071172613865971288679643932780234410196369572850010802300854562415774282626236471237714875538938377018961236174500815642758363042925269911836687809040095085912902360870487589489498044112754254929300637579375013352870811394725246179908130675431438720352096015121453024482958954733156732195818638717971159908540419084024352490778963890550104914762968602112093379989730692655300667691004299915925952088112713397503626461415462101366770910726794114986343713668028904540391396350390684371742930944921881782463660565669592153430885430983465843281496614148631155992922776470425502517284616560516555333404301287120132155192116986392789010050831469),
  (1, 15971924670714709430036124390274921285635676545473133901398282485198967800064221150064138396280910112337641237947079650662386742102019779702642566752847335595436352464028542083040396369852770563043011981123723132118138103061146155586183396917663802082879637759998271802049974091165025800571318662918410566712525413738328047255183155621483247461076417065580406888957144983170388080658873159003329664163500868960458217341893995481406369544493233595225428136887241697251455076492557678691454673335158144247542996150351827261572930881565102112060506832881544372553658648960382395969884690845041355742124685137345629963413598684681893198113577402251201615024882365981848679163150445067623852679505628363416257046381211210667664723662790195631902916250888213200894549448713517884248588521148042872121285849908460038873674664936396011421677510398527022220521572249727735438211334069686057701260865363141868211694950522707705740882408462737082530397752489664165104786515445018830135931433113112971948018160440298721798026111950502607462430185782853515611456067021777040651692898913381010580059738570371607234009847917980850099775633707989376844842316266702432171061031852101398822943264048498010574009551171256160514142189300912029184771152992052957676886864205874795215870138042599189081919176162960795773832131127192641187777870087239496267972262716760594397993048048746272839960444077182512545832919898026181430004860210693891066526126143838832727113125469191249765690368629163945132702557249121703398313990077243560774563847458317690679687669240517316512361834680522855030538745453875),
  (2, 1773239851707309181805941889785376363898389666628782554276795458719766652444231629208915404896036884743003654261325545750944056225377421137355604782552991813280572841235177615035317590988150675812142519652415791380542146461110620752195377008211418097025726008504080936537211361128644703241260600602539867697305607775933996432188791757583981288388420077868581984483008664130240153484439078177637898739768709585333012100474059784348491094757488743024110674716118655141158516741990192341199613695060586718277289934193545784941408653265712437607703280261097375401527591852096808443444531706010405024725640967652550401466834897025144784587216696532595494644518041942581397175571109086600312975781495457277090903590564897679883664975189298858323343310067540353345203749053016435108453438468608397386493702973417594974634085044522745618095602799305698151169736514585090253277814369366688282356937078180509123145594094036178815441721581801815282663204172592360278672609651905321048833466679753372663312292409371933429861761808765914552130046203029441371608746467681770718053006726668470281173654404095124524514891418208728096566836388365685685293201355644351755835273632184181840254372238206314916287189313759823686000342581919354469023218541298231402877425885439991960411430839534770887643649815137617482080099461222939200318807169502259727263075883579453954759838704881168936512690507109797212427420550715083303621771192737398534322237910265515283626438654823135522366529584842934691444184039983547523635837809159528122369597200783897278366670592347660371238661419685321),
  (3, 196869171157105820606951591165410463363449772977706772666884778120281432130591092741503670473398456102205067153332078882648447122327324048146413564725100008014103766725711621898329322880164760697260827918598660533408123778904726304800186660790129217560109911970818804090192902361568648672349547570477012956302981187611374337943007989905955332439803362941683315225528552691383693340908032039697127953458243263629299005669017274161715066730245722570854555644498973459882608821252629526608379879981878378960829692660023615285123758803801247994860678988543019506945656580414538424293631629864056222469626084750901602245860978858306432672509114324290166425053505101574322096256573106427643445901064706300095241171621480482471190682377520971525337241900136582342254394065639053769254025884961485370118901966111535926948106073001121310097795795653469663508359095720976309530216454538159718347863257743433060264292198379270260454964354471534277831719615076003183929576037239633785443113899572791245986188039504719469907622984883172089128180600988788645829112719088988637521509334378706311562251618075241455769417455902398750075016955631509509290555322579432436275795881191031105843170022485263877147434795601741236607010597032343313974838015339445034778353467221025695547321014290363526281076548435255989216706305625003819538155756369632856359492204792710811023587325071178509581335725615591692370603580264707382621465168490090636447036055201048704448137207310925364881014109397641514394103611937802187592587766531611636160370615379814071061739013703248039),
  (4, 21856868665687848975213966701285228448993996454150615990359147107621450198936319473817921011999580205536367773848761306589906487926299544048230602446420594619880726219780490094878898679511460195009314437189677980196866128322065646810811587693739395458905570312640942298481641207275510892863516794433509536358898670228693222658865936083659299466969821344102488986620239458324972569923648073860875950819963510551213018680303732723308650181512752943880390660698630806328744293245611861268414932560163371338820523846984260089681514963949822243132215784308574959307040992765924099343565822480982211218932325432616018236172282434024561833995244436698433802283406238347791990902598482276471151295624805803358816632937521903178822174894182559395007798954090338104267405464567713985929566153158306118715181978850034300055874072673013255393316324059915089148447350375770288569388861360571504292716428059051432469742120514533681704989235654981711739723354222712757604787417717714479022904308204168111821595002350117177523124155516774277276664451787872682540590364490739986121879215767854432518763395808598279386545163116600172573692902159586808803124152938004415493399102961904931593658578049105007061005193817980391956753584379916327124926744703780854019523452778714572539006038961192876691531051436217645136762796021679183587625503816481400616733849710543713596435867057355825493031066667667513829690567201301015394654612334581060312870176400252550865683243750425828309864053303912605169970796799161321592141898586052429322453445694444776948),
  (5, 2426599883887085670921642912895135616783620008799954790887728964520806904051478367705613873478132551670809384583938736956743112185590276403435837141062629429366892168122614120519699702976697347154070429334872366943006354674364979462076351020054289955423894357276986640622659975558747883977769477750950395861795120888408474188398255486780042714230385356054476591349741608047392866741109956933714960547490673357498928208439989543544731895871424580044245718319329115108759568841528433305246892412398141840843671290464736962524928617523164369628317077343627548554623483578216975667888339494007600279965710209175401950492728628099202306339414893362149771817597681515137555388536116372113704204779178494546278752259068117011243723274130293518231361573018171782037089655285575907256948329562614544684030786303880163174284079691349228125641336509207857675232719882989002229171553026503508386700540541023294436652619625453056079052019353458335513092722110092489742243885379602655632952729962304847727613818376019438362829727124534021385724584813347952626810059749773644081690539371711343630302317190704666077298535930340738556472750232737606853966948570037730840181802443653413343451844390765353578961735306845354178117570170177893454466966604267836215751763621480099627103150196586347933539505055971166849305771988263478564719226000820613677876817489084256368180005454099648872586362445032786693010338392324784280894342254417049974440859143169435593480518631747992646078742233899430933786333690892361125578234043823477824908),
  (6, 269406706264375876359967503782292963912619766009644743181351382106791551076189564601163896597676572268993369916547113368970711860207814730266718683097449614853903196508069409912984889174366707899702635483901132578442688320286899098588381223384417506168069751337962690297318069728681680347197361913358624099251853358649455269827229336641461006768165924715631491487858917628463963258832326910722620938166808676745578156131506769208160795772333937859754335671679860383803936512948749966867360901624825947388339404897975824794191950262465235509865133481492126887350768054805020918565224397442279484779966717255658354518845139838361859099758121834998149828785793744731387486394365179297715488949728887599335698829323030822997677767987298116433948461778774186213574365809896365801497829268810944414685917717703364973324341271906336999242272937854787175115293082973570510402844409404015616052638373096658733300116871162235290360193329834581586463055999692546979966729726765573499475740613442845189369008143603292235828140675743936085776957460591599623190192059544275920820255339824085871061031424751695599491865462771097122010626463707705366395844576740459650510677844625372233841469332192779892333062454993938907422317164378171837632715358475231854110725303875333797819695669788162264324244887737670561867815337359099092216305866059619884320788005791137295077479820390385118705218230180710659415320400602853104634168338830272998492912136319580826584227064497368830877842170491281217917041282050506662143423),
  (7, 29910152828315077236452221758696875548191675899602193212764952510416460695413463610946598358232803365750677595368189148957490848489363019653982920833848915894724826573819156670754121030272279469826339226596731599027415376624177878169425898417106136505770812123563278414659727680206367772143047247158723409737717351224730649184272162182916123793008023135299415085733778446128043696227227474656474404748255744321719658796532636168245460703870939896903292746808168705417644850164261075299204176562880481665242751307474420702408616433424233289802008028994094233023799159585966362755986147799098069830520105161450368473211996454271673429479413686829789342412558905185764854258950428770433693243517640012463526963684924352342960190717518335915066201144461480187775324861285421401255395308026497020465096757435411597292898135696595080950669569744879147909050229528916124891931597207524185618377085101264683665743806031284159979318953231362388056341116428882440768171229067387974253524825189362716031762931242439084466833832434589439815177681806165038604906995504762342838276859644257049998994847320017020172630462932485569992137508907343800110424139751238826078582722666645884224380899892760951829905111792835404892002385039780506499627899051646634931681227839001467790443419735203487492660592095806602028659348147306433822694124031370546791641259996009524042642423247957903246660228720342148317485598145254752566479454875706784211702484722976456134194907500813887527682976836305047723472061),
  (8, 3320694034005232110937336697875843826848823839014999750668173182683942978762996629722041530275831466125524855017034550224793181209761328690913712325944164762369824821305525207463365413914453719078268940711563642636429477887272403007880812726842955641921770469954129817485541204695403085705624690104611884168730971811015061581744171734712928416545571500740686558043404269626638718935251079344983667559853583257992623975735065040320346318095424628095581078114586385258402488716826940715933069561356570951073766369713079801669664680814732653689117147468997863481659091125788325044064371354092601510562877189009792837062742584100614399469070787410465336489074452676032721324225873439899286268095485258398411422135481917336318307200757669421327592558424870188319839322110184484716951280786016378871202615618887239056751018789602593536938143839591210980745464349582777412263042543713773500322380818068173938365272972092654465217375820347495243232700855222314677529589744186414809697884870016140181092938564997909385724697267931196362587987862246970807945752976591163354476118782205589038749094217174288596871286213039714572391061242294641554220040965076223109423843888900496309379512216363144016803946028174984478265359498804010577750883108847550835100316404802377616216248672955949937819901118965700609194006504654207853611169474362252731694613448931101633834660201817525400831111116033395211040744822276576539281199882371261857012957058462887382293028382799031244983774532),
  (9, 368671097428800531320226661721914139706334572265881021791151530845858809609257820110690969088700478872056718828661140172599504294833438588410414859890327770218185056733894055070340456576839429578414560128249937960022996245532896261854420790499793139363924626119200226006385019996148017292415003472136727236294376295837489368659928996422462167972700221141700929237858648725889948694606866204677151632132783233670175438471734303784604766997450951040913353350830205619347060979704390311879997851331009300059619125987142531693174293555933668169606129343686810926153993584407687603555146720840270043967610755649792415412618592276749233848377211720330959550229504058297110252814125522058177007687298607614794852009802928787877655443966921900509647818961884563476957483065623262411518159338157132825466503477397379928468471579817124364057146058167732187636974361597527271914583042770952908925009295549938415411303648895158641704659601293271641874037245646258759189585970378328985743468735427144575052582608500187984829261502388450225036809610672659581615688571829077394766532614472705235927247443748845125930517003531148583605648708509929598913962952902731914529388962076009228281226175285388900275826572296400552190346867030749734976330429687727738473203590606909224513078223745265550864681916079171235814774464599681745406030174658125016566275897049948799128377735515490773553817931549240680389271914157544657923299295016272894428596200785430012850762321501),
  (10, 40930714091300773265752502834856512993752357755833083029661514815324969675669269883566052892399447827669856598177122548686419583758579814286399270565183571466075776923507041509289360019182091608001216379897507774726943608450473788305891270619387564134750107829826953786645787213081964122535887821919983512240646523996309449372427781029638396311253980796643854303301549002392616859032973472430136485025321711870773960558040621064212151745813000945445670343980439913780458322218033128592990979082394122986807275755149083454894808282999347444870765872782184580631124146845787484562801484890497171427876268585885734073471163503843670488296452379094823602478222163233120508350410096858208579648339928774155730909027675260018113278992290113402497059706485908365682133427616085024270495887370078789242171301450351033372148258080061284318776303322481517513371936911270649004415338675171911982636677636142677948599460371383399094264464226955641965653854407520663829936232622031452203654317593395832884566938742283481538393734924874016761248065042494603958973668813954704812560461966818758389594658350570556839325993038570922057607121371753356795850644220420388478035666946072011731526792249781581854655181289934699768719902891795115254754379645839752917717748669556756131929008076573419440501243164793823709832317916775775558360499086318970341745521503891746407984017341083107511811532909898057227183714842399559501830064765226837684738580142476),
  (11, 4544222119405755509222759861026735164734392187432902075165682866318977051215241856233992196465852424329005391648121849825797382782469906313282847217475859034337927040601153354395823177994935481198893569611490344289843890273707550337904009644697882381686591293344134839749486409213644130339750059865458209713454669645051309088167886547990591013757595021667034158006854449058094499795213058830657719351688418003857036218181777011328704676745661221407675295652365527820365879619541855493682780975460245544761248970530970939744048269254158629474659899669846576385478733301395763696425718859505373270242399958123640938979079477331906597082546519581059793402240384049230740568644325262300993204307600767168738237668378589168066684320715849438309344268524316810846317107408268064674306260638194404461534849483799330479045803493101944388125642871908038396499259646387543737804589645673346130607818265210276180932425608161651479845817463354393061573610391067184027642762681538278113653410003205280364952084408949856192710679529482574221751813365204353569588932633042206603847453039944812882340762817314171744210606684938953006627445169201298302394976482511759853427202038201799953625536005475898908871427707703673504809817472258092900320393902394605742151604930432266956359452629974105152200794546758657972730174720203800079661650108627986531596408040785374408499266005522749485572205564206144754406651033276507327665492880539760),
  (12, 504510002599729270290122842642458109657793411805699712381977209835474392370590517332112248815779174581069640121759340481346863554249243882634723472156513138652795148655169347368919023102862143811309301407456494804542432529993749354579454379020386785292366551693412442085773331307245806527173348120780649473162243152162067073701687568215065085674822199189611016187562535037946058220062218970909027804083143713296222489650672387371675005395037531038981299693463298004425479530830791180310645118708907968826514685464589532117124098481224736895669487913794570991563085621983205198960105876129629631358842901051289493920392898842073822847295221895569365451364767923444287980522807927696383426953625176437533293424556548279683834543128915694064662982455862915530866247254194779779396463628518306223176208324731529946358463878663069994170995773695410110565426998622146472896073522780661752152893818620066041742875156697436841804024041078631079271590032907717236079905849697519576625710227775978265155781758073714926450459418049663354552031508647445305502154989745269281894216887490604391620852630935207673392124322554785664708423697048262075833399067435560894149073631876941759935508167060464188639537918641478225996377307094602461611005886734485938217815915208594732261639763066512294242025640189154760225456316327040585762755555842996836694920332181523365758365317554314951761880499923709205374792327743808281),
  (13, 56011862104855585161999523876532652672301051362843162670582866572928957239575112251428797073888168862744552926552721603340655614103718407358908270891242629609444580653150620205998573715991810179664364696328204870308294998563214364271200351879150635898075301961094713132762814009691676549297018833400628274534959604903891115464904460351385407207067624890733197813757147055893865992597060773885149137442324027370248699565074392720015356590586368971998751176598621757565256812653963936997222165271645794823726686958868148084508772539950317804163441180052683445964520456957056558407541239736084861674441744013525532932602922211032930279802026511690883862054596466056464863802888527444035745873552059005939056970647800594860717558816564888741248581151001369952126927379005195495836761076153540865920740811759144095194675788022444227361559491123855916129303923030854346582035018781914890093698897447840230764263391918254664861792429424569537269197118350314137575510801932293860023398190481672935346383529080098472117519148513782661858026499272896582500988085692608497695905430981539429514310423269223842783887346413214439042611269712808029172227401351101386473906839680503999139987990041983887998250362914084624223935792741479466472636093482385839283032396842162566537871895666460244875697039044761982247490346234378733205807680720735893129663593910167077557373222795851725662934548386350799052),
  (14, 6218565896056132588212968850694884323489397917475938346237753986123587786817518510136399462827593810881692108419805266448288099320923285410284463171251203750744053056410563491123406728049734829530680997382942829780560138308144824726385890390128624258381678263923321076261010072313005452090220123032267670232897424894662864351443584712090650810967388000052981847137281191396791686962360040078819514119414175133818314647842857475250605964063137057999911125565991263175779999157144429353396583269962238321826223720920063112771409614359032756962801168993085621066644293415096424671069001346010407163931636480391023214516286206674198999648369838459535263011990332156948120095948716361368975787034692570696385515429752100986279057716744746132829461311731928157471764077150710614648687929114267616907798797485678629944799119801314910338518445823230416099471631557971854130175962012853060630534194457624348513369562788685097784906031755310937281270779231701306147470190972820966468831588673263136511545147762570459842368185847594817025157764472411022337909429344037787371713780157476837916005426205248324271488029588185657362730701419997948563209628073668441099011705660929849546284085568571594203911364776457267254438556490110511678645493819538394441680635590490957333279955420614215391498933918479245152082920221650639409067365431019554026350703951998554828192578376627065648400),
  (15, 690399503796833581917665173832450615351531311030028742572575964616652627322502453253329054927334768941571480080822058130142124251516549228956333254906018895344198567893301493162441154530773399559334145313540790354695605151083087294003607240101283596662746314678121170525111922771166626105086353079036706573358507008110581328362862429846226857750123251282061114164294136906980871744548106279155463664102754326952169615133030159498271923553294771508029232135912416625781824239031367072919132268593989516488961748515318592255831417535859467850350752055012777844674796858907723398091445516812480113918137829030325934083263196993883422828486234415142901588332983617150397650379127333851871624935548440345978280261042558292746366606302425177135722438435795605805519435229258217745974190717930246347686880299340453261409140134691753243647386496065143931071149516138795117300778375788841824266535091051012842174986335052486338922529638007107240281620327311211498302699166867266963987493387177747633418395738575098660341675730297821160987014262027582499234561576092319740744383136225953915125964866243247968729187841928874675927219908937860256873920707271622919586982346942456287088323657083117963846937912610447996412546129748871888587798373394460438885879377028050045544687310458766590511968038622308313344463580947799780141001928970494948963293609566350098838816),
  (16, 76649742530429853373716757487647588849243838006364362738828577269671069054818398973000392552865763843018366178372822105776783218850414871916174228442634125829461575877141897970964711740766697300355939873326080642389663992298101044736199228104961493240888422043886384986736665914848393716013425374393558196493625126349276114197177410522573720378957972433883044966176259990035156411296089119382919252941105259567260454017014728483001955034672413005659930348863639566849745901250011548087865971775617970821791621199665469342074082466758862674658495151357485530654173437758503000198716184222271058925066003053015986150858543287130603654219528956139550089961990992503864494841724132449559214171726560427166569089974699992736861688684284168648615080498892950046749030820653145850745982313912121944540180994040853842455229706805067200687143473652823398245728341471233146771476094728124443315794821524621302399751349668785399242459169619216653112945466962065440551232260768316030985640158450693558268849550578441322257096494626389367857179009965893590084149047052848892785528321466686664537906428618356013836796394007720165997429362119967113172641146750983897768598461155255081703168312406261246054663772089781139092936123395983752760674230578053736109239387365910046877456719028939781531899959982215140748745002614113908481586036855434972174268053),
  (17, 8509830898889840618539982492518563521427279383124296478427953637530486761485523257631199689574157655323465494101057950702519822975373670594776531798018495814087207131979697215002575039508394807830744400009594505935118591573730214907572674398432900463591360616121629119622134694761846606299819666211961806229134179833498039816587860282425725969429443868835062306018915692112637425870882021788343695266290583877624978939181347314919068302348283455597548355207401847409938733388894334590110509317544368534782000091951444275947278544875799956365807807896417388167813123377924988984352421827884555639466761926146762638130662759097570475518851299017343475824364744837549843768315699749860221713154230833315091306038987519008871414846604735786975964825759045986810613979140527146739823769475769040823378183554245612935143317613247191165183618696376421907084640101562760960575558945390523546419246871220673275711145708102045024362653777102506983608190704385561717165919874977240351941303742878028151206357028088557281661300952288462808253331320233294307083987644444587190852399667108636371361351039908452303348670674217835366183031418116065710778046945505999366621683145216674318523099969200706884797372937286563483802768552359874639561569833145001061269677254815181371240021581814360446206303929104601607119356777721024908150365081),
  (18, 944781019961333412236107518094144319561253735291283802881658855340591057539244883269308528231854774322408030590529461201087516802358613182271078844309297360921270104885959276147886337590282596796336591648442066855351919522063103376356734580060992885936427880006597398822621357236393749168566366308297527949615647048352444821242100163521769003903011285391402362139461559034490424387627223726544589759621353521777034352073482164454563606541071503254428448146143411149162160689843598418162100497351309208396270457861582426125216232663106259346751815615535022998864414235982183943939799798865316241625658786336263234999319634410664720494896662043471160474327410515183555661716583024302358507385662409420497555816382317786821461513584764108758870670265411540904775639841633543366816590527346565948586977006865344278409724303214501605501736635999146416448079292987936447822140163110165159772126611922760525751034850379957173069951096926971216151667216747722278445736194204777803475770235216784165457718425175602288760323357442586516777807491673867469249479101306220556690829977344777789880957531692152068093417227848168672863497051843392190533110319947009073850510800608651904438627111802678046041265410053422754974047104928435707075975038904218050564403382927922778774182042277388482217751901370888560090235094234),
  (19, 104891764158993247367423984431702020178753312497661710837303067536821083852276022259536164637849106475297042159393196080178884671320747998041764196135309875909587438583473396471038421933900852779445330206986005935799687051399692273875189806523858372125134000332575862160720467595301384264472013593285931599549226097697927516436087143879247768623107056535013356588907923912399907639637237877963469351898000846177463629701981533847798036184845406768289596266134314567787734115864678600716960218092454442437920505307592616022898533272979105316637169555326130969103090163106461219363459129657462433953269232112321751749495224216980627244488568121511245317384859287937231803760817545977808310042939843389024005196425412316260600010020429076207538474103573142041380396796454148410427579546312904916209532975973866290316478098962246463299357604693870324409110227359473311665647007878565366055107113933745474391190924640645249645855399345407091804217349849776230115252539666248345155025466586843907897125331747514995067752318401051084700101326025543631318451576972475586205817992262955952899664958961873170214390672309040032785879048549394836568070176361306284096922971527557914340489436251682494069950156873514776282551331570164977594093235772104173181910146929319850402968153048219700412148532689069),
  (20, 11645325166908143800882767778039927005184545648067663187807525775279506090980956762899332263089631076941913207800241147847473775418077818486225123082890868762373002273207272356423781675910755694782299412255330207999455051425467488095356754749622296800378791080993596301318128042330143273927348700518641532948408574435832542195689462015632862280666795824691994824508814541617246962467985957166207913066206904215834505954227212278074964670107988379312786790711136546257853443967677797625647937332269587321731098315009725372228724951002570852199697782805505284810838188435153341759388985146274875483520038185359366037191316489951845198036148247238681846060605511481760792445295706775414078280145436078335768695303333884767150773095077344192965939826284730598890921094471951252081553264253695501242175632450826306853872685749392005429187793400166645910062771527160505510506009160115012400570513259288993131197214161109865742199145650621077983313839365955140777823295121620190726700592296036886818936396515634445098761068060440407157083892176477370752344866889442077482453164603631106908761815248097162402723842447001400504665441561877652898317820289103166563794764261466365057174729941398973287439532488319085396668516398231770399842319234973430932110336207765642320407824399697867),
  (21, 1292890812881989769179262012020781042502362249019083497169032834386879412918165960388240849543915985680347909877141964188622849132039552485699053690946982437346446827059943532638079121246835769582608517728116475812016499708607764791908672019391101946121718715433432633934585159856335005638943808423572192839517553087866439519316215076274196405490215833936557008082062151528966452079883140360374248640623967411878066376823177113967446958808184228197005414547364134036582253085811689262750193006778321859982746214300068349145458895935300592057066003271218136983595937881566173343687270259187644968547057089375284178072118614445528178851634473697576472601137463353420447731943609444833320703800581918166751586890552656622616216403240299286875009327195513744703829557919471257236766667458477499118909631034838471878998028228203296174565802663133514869211441012329804295575095325136851332469274033136693624099527838943128190166627836309421131340365197769495593721592116604289903257884770213016721648515889391528387231418235862734154670082812962129286408833048473042933802430396163608686119605823926824321758571606567520117907328956678980752825329678895840102401573605998871670047079928815400225003054735623324736776082209607902523381641028961763489858474334302481320),
  (22, 143539714878472543186348846533583942780345890377949349807087893302942381840662211594887325879602023071269722235765848189353269991957220803558779190496195592559275530823589926981050717956798390113645088421068462735325066462719425821932614486301800679315905664437469844457210145529653713219133243089237434480107621531278294319223051613068550932145987803768444120460986226095888996170805061908299976121324719991872461185900452570901633511206416030780129878674877074325396649909088785900222559484293769997157698172245210244211028654245273458159801250814918750704412832736999489222522068417496152315194042824716989188593682673561918944212364496643517642140623448393321669667422568123671284558810114435014192584149205590060411068951162803230009592474900732856039769368336622148357106795222603609127296318816372204328731601471603404894349934518948197411160943957771701875382905805496907580776231916714986563456966036374183259275979224006185290169702606703264917001850983126424935406896347838426814128631462228356261960320590599503596379386038829323896651016705340415717963743632158967100133911679542150493734336087026291520126174645476406143411902504742168817143508441432939805789978093523389339127523425119201441088112924754581359732261747962373840735),
  (23, 15936109640741566408851619398519874855557816472173320757599350828913855282833994702451325438620291665609895176489815631620606749457818452799716244006695477387171151888412697934969080335157146010850264225093106006395530792126025319981601008095475854450386867830965968678819715463046578519865925034838458551548840886813404364012616515624157421284419088899090736031517198747791410487298570091403570075362538487187149841934194812409724993606253877158944886666739193049612319872845917472687696385146264293923843095767463034127085360840644796639906236686967450748365479890081948493957446754248953159722682183455144318306781354873276102255912156242215196508168305465905504050621817364356738513991352107667949415561908789415310591199858842372337274879077257891465370190444043177728742704478024116594916351345563801056008684813754090962806318386557434453439204513386182034221463613862510554544240515996387944879088800849790397187279462659957147473013403753923744069742558989159376803579632377712188092205525404036836495225436427821883120873304205769891205817083867268409519449184975491864924784969486367432479647463166891826671586530645006113821275324432389950998673189747983960585859859322481248663159747247914638419112075941065371140128),
  (24, 1769263584603216072226657016061765755611301707305909504885191693690466240934107462967374225251391684461112659219317813839973454652847064746327156953055766543709625254330532390501401529562427243939043583020311618599122842344791779254573248809521089999775050309285355488909944078581663279276895343062943405275360904180909454970197091331864073473241169159411472121728829144018064649768093747589366192893241149917266159390551499215383104839584574132178860991030009468152479425479900688861783528108296252009723159399596792101643799416342713968434351853011225751311609922621286342050546606308831349479681885859696524596389904130555961042895633362028866350003494035413938113274775276553564277621754093525911029973483423750127122605305367571676186827496228689718587479715577947169340954609797634234383484458112835167102332037856306404477968986020975527374482978206333442072930334371446311325619780303807758599163211221946666729980058930312634087295065300695784360050496514168407270213963704465288706051146264373421169061721939940132843532049917810714454681051090515033079193103681934989909497673149109321330783480054190309237726861278985156624533168143695080166627869027866751227318384386921466871953527387790543903052350),
  (25, 196427716826208233007755304871437011271557681838693286891467448644078821924723811524208345857689573507626255680233076233883079165659123224166387216982486880038492376450278093546651184415728964894003324404764927611464181949583601261369492756665397222791995975315456565632550868741824131873051947909025628627347659082559870057074807276754822872491815913935852128384733511481152338519532383445959220517940658122682818430160249300896380362842117261904408794942247530969202418586947791824410002809064798928380583503930240478134505534300913878411055691279385147734601934247456058261945166983838359081628936614322521932700445414520871208897272852596612729872025865075373007474693109413661879335956162439524195070951042885557158382533721738611804420991819198009279944955212481060460673696274734810149434489133223902465723813237032910301541918833366384817461451195655602857779412699477373471285018444463066027074150831610491058055650183158919481141820050083991111691431066783529437506216249999123727559581730943127401001530337414900400487237083840916663964842583036648273289347105150460434696056376579597426400853470776602928174279863327650378574632036502551672832964883385406778103307765445298736596805437),
  (26, 21807857389474081559035266607070056996203218679643398164840926045624123420088956937422705796817388611754982446535432861681259044254881089818878326457614826653737040923036968158376650917608050528071348671120314671962507035943377076840570643275125746550940575201779476180236084292939456598086948548267475904279425197210277631736035044184653833302700538537774253081461884309204399493381679502761223531721965552458305517670267065552266171843174665972816932966048225326807708924558602504217897563260626930354919301467759191426282077691138144846505918568024517669425039974780038949579102669078710956846627309614939950101733173206590954933602791651061342620695119804391547547912320849090117755316478319722049888948571466009181866173276154710581634227418904495814151219118832863948410725630433374032777813309191431802114139082653109404245170159603469920068160479256539559368339464020578289523635479420455409399532065903567606661752862747557116149450560792615111818856482725695038320232432170693503062862988761832095331816258076966604657252085268948501324947666263123091400663169806017462902441505607277397414891642178902775086572945517108557736765829069699141991132641974296640164965088484),
  (27, 2421158539154869964052426418165440612777618530516324334157335750413951544733347682609817262693473562124245161446768381963776585881345421886892391133619072178080590622020093024116209074387562536433543910403427484449448773736733361583147521196333497424989278976575350772738213822688912724467401128231892243519804168827790948084792451666118580521567488132454901178002204086281452753515776356842197245985505996021930509028958254455996199150505965133194706714507125701933448437806711290334675654472881270691460684051777516348934544024001280160783008418995322596092570581581352870743643727600842767236101321919121599428081713415947009328526561419037917787092839538057560351688937330483875207923395994689257752259751285848957435960726525028167800291420855666964784184734663638033540273799885402684848987419916341573093794569737847961876638828668723782479997312410444713469697787206304956873705593718305434036619789583899347610000378129146479769694931639570664661524514859884540921807342938187270130014595300406137186471166488098009661891189740606214666250680928580870837755710205486605395071784014289602541904088091155492127907375993936073552833063926008325162192497302443),
  (28, 268802595643701283137016803197207738646409817846099729405874283101283268367189026911997045068862580724725045843279206624053993568413141024175789021161094319877180507121387118172744320653719327341687883547438129015691426608652224944501506651029099125591428119084737992114974260787615005540619616612973811798189422049217027326606966915794112853701128760691083889403659779719365106556967248203341619704658248629231390155942269706303510652611162947370427793334262098375752654727810549792911572539474958217406556902382977842082819505469310005557788585575356173158650287513670565010540280771118202508445295389928420965465254182402208111497023138097537875062736300146305704618524191864670289921937808479007741094195729196031362106687801486250676685206875197833779644748142289599829077065879926197440293015832780707024013819729369862460048543658126113134384668716149430011921053382631645840447591557592087954016727283453028948936442017502944211901079144416554478971040277586530881675070943860947308788871591019646220815093634336062002393710313258755446955806019657804339565969820530447509486790233429744339230884295582776950207744191134012117580825970267264),
  (29, 29843083076266291161829781765698102568437795293339790983469319138866593928697171232984033456733244585383582751005897445282276873262784394046136987839883993236656603809031953781479558491215904334714793451116561106098082864275577467158122369169674707940955197655130697267205908506242151162285123170164847602152764786293097398349226242362219274620326125789351017923158910735606880299552888384048555163114375655336779618747151820232895183335900865185527867775802922341580381250266632669498248547037493788881191512335075602570396545514661049774132656513865583638277806221086496547093510617327625878003827400547484530296477288514531907316162155649202518274223989466078052464588132833058797814780242532266130338818164001294061920545992658864032272273920355650478442741893086942209510320611197876545705839321820964034325452332095830190817508071477342620554416417010292757065026372527168879540963503425295693260064949738662403634432733755655238681884332751055421012857065600848630687984630603389233210292835747990158402430773526432426762694604206342251525531608594749802361372915411867855587414055703564626720229635721183226860314141442734581),
  (30, 3313247795655110195587933093419052576490481681369861672241487552410080223907448685735559779469400645215488831496197408341653574750610645494628967267113944302568413908125811996118363673435733105840294560087626930255565617577335040641671839832472434441658301636009159063687844904494745721342451106345301156918602547008407883569613412696648970147014453978306982841931789897198220157760884349991984744057662782220045643184745551761713804213898076224083807936763842764647020954735686183419210852848451251102119028450280640339215279746090537515529303653881100028118046672307545537758250503269595254381832127312795327085504759672507261012047246565482544743670056006088563995710567099615805832574484841933547267074312602531272613169079450837375179982018320877655866636830920122275267278522065492416338024010772793413758493611453759078516550380948276416280855346320096782411429178753326501807897485419617732027209612624958780061710540664529284946391452664896683607947139334192404661167747715885735741331297333964272966985244665583336932860918621767241256577669985170448282824198926758486422079460798098455926031704301811511060),
  (31, 367844398908568188839630671772944535129241379597406980512869905187160273771167187747178120594255712099660933002070223091126616026329799630814803558080386310267504928414267816261348096135260651662158737326602008320081558782210314396727109941867992010129759679008744270885581567676614680575050617439520715501489473899550850800876988083701340146624845144427585216468428103377529244861138005914233887196896318319160912832749460812305009164337168113742411358202165055446100348187747308297042017476116068172782429498908726310531261368237252503509954901485937935933005069661431056370779745192711210520245959152541287891238763540522947424610623695102480804826286108829053048732575344518983659620104893008876983350069441493070951001364609449521329865161764869532775699192488237626730225857433530053641243041252752721687982147579889852041647740190923893938727877414530989961959577266462196635614500725708547682614348096123385108338148321247187994062417619039726291469350337153217041980735803090053269703386555590277964367081414020219062484867745387694929872702197543748743918524363889353908978901081867112015838),
  (32, 40838932114846444484934897912869433332811967375775417941876182357421873787537039051244548013030765165591364769703885964261828504415806612917432443640121527069140022452173771994834992895938194489075347091828509857298971334877563016258908400840226613944501382280390880303537970533384231175700812993844704749743359017449252737473489992998651259414143682143066356298872497356243198521139806154132288279589860389064395533296324099099997056934151295701528635460756903292166827861284451802440296194211318732268471807995346103136676895311458377982529330504232069623164384198026784859057024486952141659740256463371027189069282817469895879798783648143083953007643742259617472459190209692770279162907138971767132249192783460130646534349810895763131191939541159645368376295361161983936095390694383475466827730192313166519903349540209104950343083882380211731119643400810987191291828251794403228767318524830578658568973340829666310740362142394002712325648933638356866885468926151712338979847976664873985578230837631958973261524225533812619762675127430946224494309491634685746299861779146157384191299),
  (33, 4534032273486743862866603339588378032637539976464883551214289861981006429081582661933116728648111565208146188133741277915129463600363948239501028522213898674881150165656691142651819870491213192459850781581990513197624314383572509017824481565825715661688694652297729849143315158071282017927844891546343132628740786014327136675668306433919917124496105129346371505798382962824849340039007224177433584840830312023199325454225009882298394941064896323816228550620637398471126232887674001751654897816038472965984783740877594664219470331143520039827797291102577620146550652560436972233420447171194245151853533343318393697913086018043827173368775838480653048201512641601989156291432484060729071907118866562470244324137941999712845012047362958592550218348468666758449838068552691036465144558263309371738618478267493951245665144288768177649856301176133595443056242657291936607214254380644824752045548314239939856756822739854678476699222414711962717839443447071204821396662811058984384504693130439028254357764319914889829949109987262261552349711822681259981372525805088100678631440),
  (34, 503378702442053180698251551966793440272050865337503514036983327873305048600000720272459806180752780634520154609689494635117559632878784564067830027504878985199611199383734167095665005520076619228641553313337382643812217277720438324242388824695354666388669332704182527013353010413248838051820089416197137312143304723815759399229661252804884659100347323367381592910494308631650616228852877443058252645065004717918815235651687253332162929694044801171359629118383938394038878449756291948667791351340876802888191294827456680839431405720074350486521725020894891403600014496892209777678292799177033840357067241625997722951860757936692999475146106121138296352621469807029848625911291268864381830962332837685722727731560347177601930862349729574313685174911022509772070228015709984219932469601720766248179900019921733692500432315977393600723834078604132894973992236839446339602255581471352234556503696627566930261549085584594018611035224267778873666359598079248374852281055367574708105352992485827501543286372308512716210332401758265384118935930191733745624695272),
  (35, 55886262555710568521872172796950032330597644789304274997132384975068950660216038716074774834091045012473733068319628852425820309412909262716402908214024565556830917788003725298961861884157816674992649532826898420943023564277025341497896044755292027095999538539875000725065643958224965034193636433759485585544383661558676396353533035341219778562496454667975429355823926977841601933679100836745570782994956794275828287436592759531492257952004096267745809989383780177151590164782431918647405536445415642458702518490178800978009867638009810256102775966236015393329661858103274065240348720623472065773524587601899503367045063449577732625772164350460152829098071531407942197940075312999249569888325757446633217961075373468660620845145570157920150203297276377490941492277678022764589772117986079382553284121740620821795011127500474428785621263087578873810801218157432351520437272153722297756160784602140264381747559285148648745763427092975405746551288976453662794403252052287943186179192264911358795817990805282673290629744088425736174131681110),
  (36, 6204621544958939924729108321838815502896155365480917341538916832097830211239713971646818686777795010241368271447294452570913790585591274009807188205444648858061843127479512988252044875753799236533159171900817500027551205946680791082274691218548105886371189723714817319886907059420322490948139553445298819909208265093969164733091625237909993684525598781174225301412673272847986711738684455859231473625831770715502257383791844933638720714899593662107653865577477687864380670734134911765736444173961777195227063113164955354753458485701407959211793633268792985013458392261310023511729881189515347093700810355981150885885498841987226928803667116555250626895191551546193887396394388344529855754649022339412711810960214289991999057276121522690022211404016441905625685482263152247146438164173486523288783562670558779556746005868921540355526639412319940443830897450619912816796258788445243603625831324680817028363184497513639837737872074193681566965621482154405997038948027584799011649664112374134853596251130943829430020456351235),
  (37, 688851369829938827706359408485645130065492612466371517096279998233437148002378983930337553552289670335555327995050045344664703044142845705538284943560329411872818533773421638206592924422033058515639871243615112978252466422792338829920683554196255977224438476579084049619554335106307942409287769833561251255782583183901848865809146492499931553679459687112215913696515909805284862706941872723920741111118753312796635181309340509405123502837586415228386253793550653448469075644744357276768056932149948504160901372804947977962978348681477466122887020118076648649977933803007259389525615311664776834112226395663065145327928593604084253380471257856876800910761539555952044538163498943682071636219013323112882598071629726133981604960734819617229021260267305856200491679156256809162591609164113029994589469594591165402113499749207730752282681064974020298986870253742259776482487379159552775752891104206792130401140356104878480586778083028572012454860267278304820384840808407715723671210360133403322478931302236478),
  (38, 76477865132973657429644299958305571274028653375464499851721948397443131491781900121515333333336293043923832791013943678251266878796652234017997630269248299857566805377586603351222782185120556283215693248263705035521751919094766332642818971317073082156207884485051094034739106045684642052488639300593557224466195164443327857532581305311206363827695286803210658738455116789873885111317215471569073608275118876769773606620952020028653265598151726101608381998951988589057640178225029114958238771119310637989566225232212775877310390753639889860664046126557066235131261581614387438335574401817336320308661643367398760661483363987162572434614513353413270216295889696988221393754036156663755375416509440203065200295883222747988403504825597206020546470102815064076362892620527294117907044133518114249938295983153378766551571745936630227121944222108234166910262567925151075943861830149856524810776347397305485851715064086477537686346582750810092545438890711682218276323851167929557963275497562559713),
  (39, 8490748674480681209382569846141343307257900320979262930685341234818641243711290724613557369839882480154466600290095103231305288169686991654074333903779818463839894526999995525557645983256560194311232333623225818882597100063083941742237066227390513586427600302152407775337988295440229678734005575840930121980229488153637607060868998443535268280602093049456486154317385420848963270131920727081243786268658025256002811073138297028037705539901125276098623161197159596820901980646089431705568333523488747037573741926771934200425000632644575431754052586635325876108966988337785950005055638281682864186429609466751890757654036571364915254400408809505537170949848171762842278756379960578491238878900907328657092328984591345876316507376332398034162723381635988112755817102848178980378538826872472845287656854396401277843321631831293599287659665665254342764342648296076873720674385007714666730143360485112534897278719234565962989840908951086000920401911834623428738283583709861915177),
  (40, 942662467455533799255794225987672241308907190435298276700518344172808729477401468941866313498178667556680109446448518731181897129090944340270945952566747573725943051463346810922352994908493827991577467963001280287421815713416219813044381234373293740171149498111837856473187528193534165616008722959241565571205420867540053546488390296820337899366998069705237339996757408962104561790784234676262214184242715769353120235943045474762360855950774746314234338447162256923768044437982003001204455316534628759401725718679216918182733235618508840736828063217907248562556061382885889870644673976177856496225392684471898008513537142648751648495339354088090395089790442239429740684191803279196290188056605573734364617888929565373494452026057318738739783335912823990230115308229042597196370895665385118883728350010141655351122521597409235424548217563481675034486847642239166413817696316939675092635260393082504685722756759791030164866726328779452595998086411438490663233),
  (41, 104656557583728231769358871941427042399695731754336509994793918810619975213679813483567034870464578167221673014651018852457855927413446557279851122236220795705026980042913973881696581873565609374170394246122188569049115170172406818649567868798393633957456191124156297285794712796691424807701207584864250291591730604883258294307939208881168421645081362142166864710832976098388605332221503385533951885914492913061746298237222521800047319064585718086508764106288095225787679578367699446784297835250429614205444978683712485489090358492156759476990215805144133580732850109805827380557683366625251904025208390129645376179620673876542920936727387582033028341263787349695814290362629467081386958496279318452681380637817284070176529440867492687182081547449774566737381001493637994868691589649520340011370804825414996137769253556823869364213472179217593151438903073082170910397568440511834672151882160292051890321440809108767051832229783766956222429344),
  (42, 11619211990764827154819985100312193051910025955582549513462429973142642233651060578258721006084632284366355607302671163993521448400976347607724278700022369921087339323795448473550962730665199829659383331357801734480073657652177174918240171680598414573706366056743728576286808645187903593363719497857404183578986801381949357693080573102693065263946410417687498568115735351359025791870941052444235206854831636236202435496545353505167966999135616654258366471586639529474364246821979147895997690698893483341237735624300400754147672083012932706413955809979581659875054390509167296272704408204073484362458934516200907181592428260313455477427740775729265155579481686956245743632633302019733068409351749117672565923820361467324770515724760666097395373612941013303215961730308352019489600772759908990972004616557021957196797779125091310852565441510101015723269317721347690993936616387125891669809478852932296462599931918990417274840014),
  (43, 1289991668011429127842337279146415328076974511057600422613627656262557060706752708828268080228585317449355215778523826428070921898240859322303723347830637209375824618927887768600146071853486355876680184183189434486111834365511772500799560723733742952235861274266612744789518391180753112038243260623115069154058826776360606436719496634903717556643457492511910073099393540654842400925502948434755150069077598744559996305147014836091979325310999430167153511613092720409274266029380600417828049500143530334611667705401955207896427164363397801968370624418273164231976694587190892057421605777103231925607011612737688393999667792182428609525905310104541287787328598771482548239411694225272837497664880711815987122580368470798766959688710385412829623335527885983560464721831548614782490730855888912827586445824316230282379065828458324076887194586269532877856763981039880449140716304316791568408834731958567908913547167),
  (44, 143217845140183744533698852329978779000153696983172239742470491520422583998093617567393750936493773439855529011687473631930229070742680234753423427830307657322480279349142814875310969454378016082265260891336924824854235797835271029132382426325209997306065779948328370307754291828059974293842668401498099277658261674314585456606107326257689758334728251052099544354957357188210821354378781692458691244267565610014726045905632414433031192606430676273194232577319628454142936688888617364100090519962964840402202724137863418808823188105505141369973702842613945472561522609738327415122374297855477148992283687573739128479469475645090949690989580668086882880667241671926481325587082062504556917377898677636014023038029328048849758579559239385839603371273089886038718212811598780927302140751263003172351038864645610481188904874289147729081531506566470513785524983216318728707075429598209293233219185155),
  (45, 15900374921179408419166065082538677998103549345126743945514945019630412152490083592434786580384673042801352054554204655921883373967105808983404237293210114806225205013820091790377074190238165177607899268878726801121110673297037604077958762466883842745243876678385371634521841431096030859791474910670832621882322639236819198122956939500719689923272333845125594095943881843289086911787134993815364750945672768391574954020089306397058155244477101497177258384456666090044488620222396621884201531906020148328992705551124692970615955071774440952855436743873544408320786650349148500340188212469693922463041183123360745846761931825688813999713232925421738610022856709266429468795581318279361028390244031684774846806399129825189141621043368404865662003680023435146771559001449752959868947664380989145660690855265600359361980174944047754386052334728283070378414088538313532737943093652706),
  (46, 1765296233766596422734796343419374538007043478096321108024899765497198407332997934249399878293770347083757894016005546680949665222641326189718736849736518456063866447455414478804202507408767256978739753782579666115294943219270119055750086888465843565081583963971086472168549655441987405959381938081690547648208782659351791453231314160871305434260631927710744141744261338851395752621145329472810921873907401909181142656893722250275451457726389570408636169656053760294229912143634879101711586099144093057792975663680495293394887854665742211478969168088932473633262478529275535599821263219367009672294121943465950981656323639188685235781250196384369523829763323037265333485572623035442437224666633438448691165964717707901694091664533525579319906874079797729302994230672190691075466251333090323324053042745277897652440753885847587312306827733028099242987067473230766),
  (47, 195987252401187601962196742358162483974867879079332019013853680895061574114315355113510346327184673974554992332146488838599724846748190148168674870474829658322467229036742451410118585510744418990097833978581880377977481184043873143418657829030507260291009536293291464756649253391866499254277110786109449967388757179125452409164563817885665358489259476493548542150734078908391408690776018397796474403844283734307921917811813028607859647449217392845883601895674895239484872683653241612392561675897785960546208299912110840670743127081834293779542164969951286157124032773865106369233668518390385138023246332766603762473628183228883635658085067169562477302557198732303710612633210962343435930133509397102114534029606524496002455911740752146743445187955627861223998361244052274199844674001574407182658049122138698754567634946418814612566297235529046886),
  (48, 21758956014880713849377228175817633820216626076310268769080937668959784754970169559367720576953873829790980113428109827338702849837373417239789546099779823819542878801515480462717106026200303384465093840927762230647826142513615580681246337700651920317742678695878992424622933067443451687317240167916696462783274279898318002756065710027625139045266920523572117513724274615683271434440406147527620405098801114258552420303692933604728793659556855104952349874588145639414844187418980981559140443827188768536232846674498945141737267510690591633849986426625192448742267937596465270360834297030588162606166527324276739064342885624039700164912586653003659615340410870723345726806484776524906507956671896920835922479267705196051166453494022185461055732898426677647867343956875012958627365298075192338408289222581717876861324891659189292090),
  (49, 2415729395952754213006909958253674729541763065985207030148104578343028454080474819176413054899102960813108528398603027364369718694353375199115673791411186403940541665014332660025421828437144586953398173595345647415551863099246414673908601009029564152734267804593827907482958351935747981062673635046026097384506407668120530441540485376860834751134506101636557745944559227321127554785176153059806279094497221714904656742871183443515795969360930629739397600347996098238387221985473494112647829509575143909903969205035518021480703086893462518338184917448987287760464355329777679504849367060956378064222851163563782222839392075351319433833631922238547046762231388091490169690507338521887127269438218018215203192054921653878808564110446929918257345789980824825980999306139794235751733695763915940928005351763120008121302),
  (50, 268199839665215088508355503191718599038959610961956600805713272783487419036938721892243766508558604185394997552945523866899569038579506613437398798985025310931325997827109091694754201928271999708790486534095744623029756895732494012233199054937092348775625294328492368771249399132902747425539279658672631207861554351716473341515159259187403065898557009490012487891175421745898928292056483355891776598911405802583958966834313814206437064980806165734794752725802473580096487760130301444886370100155296587367373191759334887617478432165364746452046881995039223933095477521051958056615870886459909989799176036396534370134294197742761414017613153198033574315928795986956730967843865375586679734684510232927157536112063801582959503906398766352842987835407737565768618065999252152632474188440759406060963261),
  (51, 29776163719691081116461997063405072195780849307118693491548641115291236670343090357643450820224136009790059391166271287648316439588135563781373875263954169742277836861347136930440916007604722967316615648223117171369045553795370715662787411132286153761370561685615729989802513792690631595284604341941716848553785369190587226837934484304900529451429729053580221786018286487243472851380664721208704757067072116062874731787255659753986959719902998182066355638981406585696649630893908042531587780940231484598225102063536700626411919779700999565592183520943437048747926438123321458488124716464574479774561138200592104773528680249075280802346649164415190982080876233006279154197651245391757707247344612768679988991200842974452559743246555784132223210349808786610503891587919993284497750956),
  (52, 3305818254660047545173774470846697668134533442277505302952893345043848882165058434303149765612546143755797941647403909265178181869011761546053999936600569944504292121071904219711791514212548221403650076739917761353018438970563021884450659564117624729145137345246666698320861126934624478663634212344621596059930652992318310875393971652368947482112055176497076074015890570579420247827302808774942009683340284547052983056613821088846175343825662355105040367540899646955955450313592375770791145707819063962225931138379078786913216537584479265631038942916885023651758843708864427701584715914426549836857790619174349544653625363875929639010503027756280260995434336308505512450113668578402811496514239491930525800176491556655594188541308350098126460291447697749704569464601),
  (53, 367019554155090668984343958808232133824120923366965908546819271832292602479206065525191412270424483775340560236058088332552277348364135117213580417645180362421701332707837729490437409885918096549666900414548381461392041090943309811811524450318434482398597871084890079473675235196548027143638082124663874338370532263485298268599852390646948145123559334761316535592924719239894660405457415392602144060984468888894923614965075233386460579919061068615898689338296314610179620138083692350901159522299398486976664309769062693383312127019100370063276608885043359786983766228373623823803500622992587210513090331279022582107581890650036559654131835834411153221379744935054719812662983746667400568620786884606358708289027727139725960007301553789721375219636474),
  (54, 40747355951062708779773749690393018961259207962161593528129221920626859630717230411107722161970752920709129050800029702423149814132804228935185002131686905771768421123400200988962955336428808525789790462618245124517364694830879181725816751661384441607855801226867747921326865257106483586162303432736196127321214982203785494929108814083137149114676433468023848696616354511589856961518312162184659735411227743337112907650523526514251580386758490334620227324703491130557953778812387938205555767798652094597952847493807606975775965352355762947980130233532709800006798346237294020522352234730248367243491827965536170519137324816821209199651240859193335003148316941486654564480368204870951393946799613923075975231417106142323120667932033853),
  (55, 4523865276946658204790424515244247061275242784218314135673132703994289823326941578497072159945954292176641688649678236450823548785362378567782550874208204281552507316129795699102495330896150067858734712465982510132980624156663427744145736102421933226206296214262252811622667697829883369210818260306451953522869238015286788769134602216281031387820339311582958598595320849867600390674549595687401622650969007358352037535128175397038342844710445595942289654112676052657253585123188486849879867596419940302638234829955060548410059928568319223335956863673923443920328539656781379091268820641323183840565088746078370635869442357460555771196107862074726325528978433818398055867259912826160853498589423158959659751700930735078),
  (56, 502249939076850166173451635967324716761390217777557834288533947963203468207977221345111662546405455274535282501483337480811946784914403127170975165937959114463637982450373735677977426611475063503520867827774489475369528932327047967490635844641616519022775278115755850647618702113653345303658410699052486840593672605257113705414889946879301065777839279062071932517555762802132314844389282715237707471271254470942363029058715944356142568210058635227738029514425969568879037759790770859156597105730169215855511326082748371390573713062899036326964030444029977509164865767209930943460995679683664244138489786457885750284624437991589850588309884823974755592674737597796853752650656553936449452652986784567372),
  (57, 55760944647969599403014707317959458859774047135928414437937860384883195481640810881850186763068594270887154638845674798208452784944013345013327480222739364017364299038326557795752097089510969683343220686747750102856441310304965030125483648522408516210917415713637431249551865551587948146359666395632470875161801507263770363714229989699378298360870442254308985503885785285919708787946110703424248632051764046355507513500870099482222889175786525678756827815842646127947376789727132428348227685810902019331890412228945862970863714086915931512373103303846475020272087334654224313675775486069669612186927926416906287087109969125784171609968678360027505038915001757957065948123409419049471642),
  (58, 6190708462302507326441593887731397592177099421541044757198136578727856348228608389480213528369037876502090137541813160131397789956657608081262351719432375890230775255303170968161252574511328569279823571877175660177717895167042656260832738862802791946142659074631416292422494574288777619991274214267930264300928629285364094355998955574211077843023343229391696772108559293401885899041312265568379954564258639397747565890908786880712646074395888450012669783655705514919089037524718111864848944332214626191339395368455630812230204578191593757029978260873544164835878075937143533269165711162981527241512531746346617986561316295715673674646049209499679889758577881531761754714),
  (59, 687410656410105007857898402082091753106387227941871359696326310816237679837570360771425187397005579232226276840801048465817284324643777357422043320451360723245420417860842574669251479685134686166291443261234153197008126971229034806550905565257534148565981512192345804870193728576757835472063527712951917786121790303842347559652596880996750254648055458735918085756377056633574605531300225295563602085209486733149301312079235942097166281386002847276400043078421758532917165489876186900092176261517966069434231525072887282564867440333773388734963513285237813781562145825042918109735944112649395258571854287944393042859002573965612382981178122892104836927832),
  (60, 76306373245568268879386659541852789137742556318242315654303741935611414457530150284019033032430948585142743593491783018336780189233608480829221332248406103432340102604345795822501000235093020821629800362179483291314439373417465850159888661910113178664450251332419004201609339361553441204900092507823459133418269410080790812651816773347833607221492227314875430400565085334454049897736101995953877974756235711903768169094036664935964160225458608608680466867272368052462888114514267951353099234326427816190650164330512762004137302166514599767981128752232426427108379058689668336931240767073685772721443942001279216282347696084676535317894191),
  (61, 8471709203558486719815517027945651488461004612135043928036740941970501678604383302097010940264266393786414582613845792238540765361760158176533883509504456572628691345532309315902215902170144298292690394292350028978079491498178250754298876615352613372410951431153786756825819598344817953790371353884113891691148266550640169891964442076839641458062071030834406135803635839469152084429774002728373385901713790959666539716529944053355982820429653598471423454161465826711332341348980620473507669103787460995414686059568801522747127789455086326479050444210654670894845830594680588001908469905767407068777415478127831672114532575),
  (62, 940548666086257544328577049952912862186091843765123977673229145549623261635028247485093911975212740302115899465098664685750065901214306516711996309074886782528595483534694329223125340288963279234391054929887163324855682071476399178756956821477281980871822347486568203592700715074644784132547011859951057894480815074627629569880451230121299488139467390362448738122601982887325987749520276548653653323309394569769626037056006448845442969008058058278429798175713736577212574279793149863054629589020900521272348491186843108602316457941281111665412596916425367232161052646197583939452358056449274475374654756732),
  (63, 104421878564940197767355010799677131939433993331167251098649703225250020178531378168725252172910280327873824739640608327042113007651527797495993331095196739178121714327763030460856825845452383970616458026794333582820875854727197944298356576274619060267412705312434669121334518323495311949946875005078693129863861169091514489184725146425594766304094199999915871261971502542012292768557813285318395460084601848414893904443181022259362210148180459040075353643652149593688445271425575954501511645796501949282548338136966719975059829514421047276202422865954578617749774723984410417681988011487168),
  (64, 11593157372634817573434172326433864345724033001739599153676167197382989248554787404822563561936347737802811079750771313557277208667455329564482947918778193970993726527209498474770812080465230795330310233854082473548732468771608990403698006849280165212866689419584464742960311022117958755799342143089343441928265456128761378125777431948337707416436314545787212070767595411615748855382237317490552370079883382536958883515273540194458880928791309833296707654603795523805019922408562845495734789003173463894137527840295775772373995030482671380488622363667972586500403647708828364),
  (65, 1287099024983145520903423163001908467180803577432736960406192794658712981054344071759784115795105242740949652008168181009555212063512726332326527186174210659037517881573842334328418115896760933878908139079259055061052072165943147459335745362673374277360702097969431433669960029045330951076081822049634785462783503898112323067558281546210699499397671744424604983463513467433351159983547505514008668555291607785928172760879574419890846480985280528851683965549652689412772184120781079948278129546005951073114561917735631702556463479627542228204075120409702910158),
  (66, 142896695856729435672777396359435560015487550443829433039791295651461168724760906527287130352375546232752341752763309252732303316384626087872523470967355402492610443592412373846130503924500845296634593752064349591844873609492453962598496551737653690959476580379500599284719303857237844611993031226406861752152561791029669192026908577017291389312955728596611117648102614971183504903244647888318004892874036373616161753004833196848850106224235664720050831192950454412457969636775527312422143377137973050137075504688421689143166338296478365491113),
  (67, 15864720335429547279959452933699043711933785678253824163293292569931268549082560572682041070597639862947398433077439807876410052314869045155334626980007240079052965904762658039296422350296264876141381051325486466411540389208361698675410160918640212058740766653764008172129186393089268003268348783047554294770316232770188094722423303288832091653052978142575678624437633966012212417645825696363308612001704032186916881129238013988509323199881505850691787063026440450268414216997811453263949655289751812884135793641853710616017037),
  (68, 1761338375007179530721595459097174349960657148579577383256370182910985680067476272739205454127431549643927424708251516322246227852466845657886005403588377767467405316577151854202883049870434194772780990252195239493298516464938021653575016282809137153024314732017980077681215154019246395936527930320482683114135004939014033406832031480418395030144833646267236618140373391914886385567779916471952565868361109227825817526777136847643483702057912149498047337518726618949975398225417948519881296631148463457145776205),
  (69, 195547775615504710416079627917608554037802414083504983813523837250556947884622473078517251571859022915199435667534228469571744261510750315216989022080969657209060757106365864797307828737275347199608262424234167730619724044319348358360701876236236211626919296137993502203705889350964790029309142076714086486416794535417196683278346607222704077250924065896026825109414386237111825060231031439533710231974118372648969974450920471092520423184767352898711838094957572723374262159209306078037942652293),
  (70, 21710126785422203819507990133320152160250772351803447687408918658218305084718164055474857724160738384522906252042624714583515156107925540120559054861806818875797132904943423065143478072564787620031518185829655844580892174722688346615286984960895409828971063214678925927098327836879582768828296181669780828077835012350582970143852500751728484912724134807758425456766633056158094355913048214162996775601756634643146528741949688433597839620901524614529574468965312957273680078911028),
  (71, 2410319364947861088369715320790318756121482164865039497451901365966783246002680849324817730969069518038306267409396345264173454676462312469540944022785887148708131351119164755886041550875756512178856192241439777799570708066223041115304392168203924329630065438001673726342754342115842735818301411010043717910249466098952822110049122884683738450198396360326225243194312798712089478078128976766892796512209346783461036316781019593868571179593090763988497448228005252),
  (72, 267599262216851927091724122760372269494097115492650133757630530959794115604887877621286554487507326596039699828314977141319071782967459383444672114342314036748350283790424427785308525604256382725784181912702119368354424603720000534437733198838171641504488935455499719355155269615453992853149512724983066591747164613295928733795651793474245418515398348999445513791147182618435509330235673735562807683326269525407954187816293450302268296296163426285),
  (73, 29709351586612901045283724831436869472749443247879566054761762482685395193972794656450403594964411622306607907737947272013022519654032097987111015191484256312175736610566228045190918951231448237511326926822984867203707883641052963776996773403339059451896585278325844744402915176016811920406899540042671466470966037115245051044830280053313525917672356099263713500458094088780052819427504289407415780596686316363950089229907003854047),
  (74, 3298411941025148345589215894415254710629389502127971054125711087205297985199785340586895678455813700770639523395273442249114597938450362031903225781408741972335818301429796095273839589468140540964300858772493662248371635016404160283975446011278086574265122166821641561431527912435650786565175323484845306987481881136674034748586823946732107801647985679057406069959178770909599603022984871539195780480482344725656473),
  (75, 366201381475665009961977911855286254951900398777828581173577075895123366733113124947363106154734062590597114952181083158081225400268811905717462355834778524726322104268464814580543893612036481465269917210270141354214037674219907655214964603093612498820299905452022463043619640824329523619438390781540633080514041357173124422019843945412821305066129849478245613848365486690508218833166298684831296527),
  (76, 40655991110977961054417359531688817457940597327103498671015888649591357333231646986483665415370060266497448256231903076367888558649013286938486208365648992002671562158439218460097712276496882246239696401977755056552496482267715956325615734347708934688934655655613123513383087777550254344583694038551562780579818504933088960524422700966349294179025759053254131541071660018785559925552),
  (77, 4514542709104462072003765520131190225709179687733690379176225965377835106262014825887252229635362318653535376707319502091528989839190294528279625941153031661957036475142897080190796546397709738467821424779475426408014532138270771855964418848252469020283673131986465040043203119379942433993090040819529218332407120376675899074786797330002564331663463911208917284235621),
  (78, 501123663209889292616390373311283403301046771263272073569124543888253017088600367177529266261306008260357988650143092454865146165836258486796786564474750065460630723656146767018607188220938903126386287159259860926510358388455672000782360788682527136506188797432369802329689263833521816116084705423806911034189335007254526956268471582939063900804669331),
  (79, 55608350632926220577016690487185064848680143560163219641518478320399890106233663413572063482092147839650470586300359999116763807356209978436563463612825980867582621925326940860778117909056809332910549371320253325327520314563880749940165952956459781223611429368556550146183669137648254950058115761207272220118895018678059602443422128205),
  (80, 6176826629640170359363916659846773607264956887955647052892987811224174776432397974972713848020466146071859791406888845650698985999081615422278051210717445006133922192728550289580900669445179594483573732246991755403669091576231035469456251162696388941136516561422057809595161185002472778969141601335993370959121908676528),
  (81, 685765502593745912161952423982128721034475973171193685746689078342179744969920776085229415674237793348813079633811973905551058335392288883606831640027981139340380569602114615594991614231879020873330552717564209479855829457783397863418086995552094292023603021078089934111606538272751047545472236335894485),
  (82, 76135264775862671219620792676618804264526344267117230703371186696964429526235346836409953648626652099969387279517372633588201647232472848533635051229462667167520892662093930022605364795376366325567483574703933434702530588234865092100013787867707135632395182901052395099660892126772347640),
  (83, 8452712512240208144575652233281685279962550001605896182944569218780663221639832681912964039375631661684018750972224480858120249153223472008690516962266265405642138430038354685645976410908599688164572399113880259587998447297410744125771921866558493937526636960240441688007),
  (84, 938439592583375164114501893573198296848823288376328425480585245187030580968222732261655023716750180831239253529227096320101678229431168028941432672856190813706315120328409421327253595089259102446607511422258678924287603023060741402404526735814394426275769),
  (85, 104187725077794963497431173199009488893678915763250020267792166813147134468464322585562861494192025553760671997303953283027986793508608214257297327067156422584045135476977112861548385592604636520784808400679140458774676975278357081689962307),
  (86, 11567164550742747427769951623742732425671238112098736456456867650894322628453404882866406732011547187432725417840242309403141555540196243065386688811669148131090810586665202272260481705528653355848220161425563852074044847586),
  (87, 1284212854966098842399135696451138322921487423780352057248109406178967550593806269712079547707708539791666863695631770382354712839814747069231361279930766296588771905365564174921945525505825242722195361439092),
  (88, 142576158584368616571976012228870648724790353892178770977668225216218971315382425155655771334789502648453794715747242436621083150597542300757299414337157870380368153840485981444721682204483779),
  (89, 15829145680570898775021220360626339213659385847971369926808605716328541516909977747074464900323191772979303166468704429469501267625708409735886375049455928190010992580591884545),
  (90, 1757376565554852830998649091772206951976819677187051054795378867182090718646688868071301574823330099049266421954709216626130738431678911600199620154485583203585),
  (91, 195108218298102389265522202078429496896956334507825247068791776715292205653972071857434536153935664869275861879178146904783162066807929707722663),
  (92, 21661786635890432908416505915116994229676202651150155142165770240062148993155616313115466140594933136406236158171173025800246116),
  (93, 2404897933717224640791285248784815763122509226985014208707064612784791640004588095717130480566424861516480978762),
  (94, 266999758245904223428747067540458378681238353578009518549774115839194675407458004600371578265258),
  (95, 29647785590764265657317031286991059399260781395463225934526969117913455663580276),
  (96, 3290529342093623744410620791619480555748130664611573548128162515),
  (97, 365191635683628075447745912304078389803434197350),
  (98, 40579061891012970972913721358602),
  (99, 4503641699515760)], [
  (0, 143862307992719827880485831208652903318605690454319230033634856296165876357372391534218137668715017403786208024424063504896725272041397221232217606387778312785472233895072199005664857101931277905238552266937168403339289924950708850803364481600018368579483271889606332030017215154323624562939393255866485306821304651038685251306266936567957384414620597624145792517761817302579848800852431206378354833512078969461815445976187264766901168599651187392109773610160535955868947663000969375879302528450774838213750850418103275132492123222107329095059462503567198835719009100604033445905598050300371578796037848110479324885655609166245637798748108893204627041509276132385483177913518854673772615860916869817569482834305768947604545962656534401719263278261393311985272533167763626862398367718702824647981615425311617250572636002489199948357084652993319394079226734932326184629481054064366158414756095331949006240190038635264426658394306134133304903027030376776477479539606639074673209864571000968085386742934148235592661929193173428283501254795778543883006316362346137838259997884820993202351607095540912470140012953123727129268416640079286538026844355015094665294819701624842228256118266483340746507617124027400822642038714476157433563138263675849506988922137549242952271967405340805720899716299827188196934369962112508627920961790121856808518342702788565066000983408500278743791771049485522507477288498466677123384551858673815232536512115282656182499320758492467656510166314324230137128765173720000068137547192746095128995478615170329051568916843456581723130426733344936442055902012436977107679197245668),
  (0, 143862307992726504144998277185100793403808443124945762249588098769767018572375802713116044279535011566419578599771924907451434709079606373816277123682997862225208299649273975692504061752149137930761302364244487316701163782762142065616164678486256640030732629033759343438420182555572024319079746836435951309373333758642904595184700720286927564572950961380630101736390066140206317017782811338811513517075320543962509572940389375151567697442690267697326124811452464066247808929173114965001306584049767068550683131733982564376029934520661744833940644394622197075465150140241728522805063235945319523171554282219444550056754981301561303292920552461610373944858830687256900071507477901861375528471171516399631713210257223721069569357567866821326335730405309170674542037508182161896678519330754319453316411514481176451536912669958156542621674770038938912115722702278721000426888008101338013013215854035889844900532183429023655307471795188075122511246833150836797339401927620265647868913875426981433459546637350609276822023192365585205903055104131412391938890170087018265248939349463079351418503355956066631933439784339202621457723529009607787788703668970909811458498012417843756149808516787259993716606500728409794519387937354299177045531447513768802184300512941190873151139515992172953068077068221725059143810848960798234127108272565807068931495023907492642980214818371609085005040074186140072004801155533139384109334327352909002171503710656874982548164288299705546530822109396995884616760016649828900309663625704611637836110674649990525512106830524913328879020390423675683345932858044668986827063951360),
  (0, 143862307992724715289435133768226564361095757317979444093857210104734925950998113537337823182377692796569458428276053698830851462480618000308704302062443449537853756846575024240227989420746047286840510502120101266061811521666377135183744865384293695484313338733146811280753231090821543009640653090577445649877970721341604358978514158420172080606032109861726100569708021285935847999791295889946776523952435396882299234296720035746431589807676623948436787877803097241565965224583922179304399445945611859255463518790774444002103734371203999290426977214121784065233805112490833765660436216681559793810030110980650022346883651989744760669633275713597968865671502940708614366324492687073946368176760833973051165695604846930918876557143219755249098552014256954326160226599664761404089667454698069315940173020753042988395824224594556234891402523322476731560303487549487273612786817444700817848196903078546747578025903481052169439612246874809046759044736675870403761346779761014688987206311387233444639243239645749215997803547726837997064182552241232883912412136186691052237553732019059239517668248226832251676097688625058068373124824189159574474572994477135914449554916364261781355557084181304911812354180789697893497388695118704838554527816009773044724322010330015152293777808403104644759591218503180935355014491288691810861287652352695451343076681149305847224919957492174716618959580485278197851940588715137461977334092093289415086916397078861540677402368819117314549822773645375573545431220853001938645158585189318767615761497918976586696833615289209694913909194797952046460877037718495039413351897813)]⟩

theorem ssfsLow4_ok : ssfsPlate.lowOk (31307327233 / 200000000) 58820166900000000 ⟨148720463433438400, 143454398810763600, 750312860339781900, 574330176000000, 1292242896000000, 587365483125254400, -6138340710126583959, 0, 0⟩ ssfsLow4 3 = true := by decide +kernel

def ssfsVec4 : List ℕ := [
  10596159373741280927341319622331293330194330072244813202451789099790632377569710727872470451193758782602308852405237545007878059000328217810170864616919708103353656791296124860600939830557221374503988573892354103709292761197856959133788256637162750162008217897388135078048677112893311019156571088472163048005452561139265938716725139191948417216671959101895065025990695869316478861480695003713107753734166359085222074651480509072236252984201612954367183473304614026652391623897110833338432027730624514871637718230620531184892150873925849945666907582056905018856694835045214666268030592853750628812220332036015502299721273112662932614000271951545303421392939616459502544153617264142177680830041892471253534330528675821583604132955963606898784173004259623417698140023243652925960935079510198805315311690083685032418485144883132821111420429237437036004048977208720083372716820051827616478512683230623346608777081070356958789166865375744606606695282217628945532780123047596465139377191866924599832443470636909249738875384123830730659327419397913409206957488084723994651599310859628889650428783164283850700188316325559943236122970861214115387507006680011669924464971763115327074649589488816937577744075652675497417714582893369804579828984835080323473190524329205378401542,
  10591313113865362219163579161187647637949571246273317668150350715536784532434934614852213772497449983953141925874380058225200384631777209401334057882972604345616276627180471374914923324214238939847642699977695150027264578767232110141682938874984311515515568876781949601310634424615576535360590857413920790437205936283088404127060551248783777086809041558508138795604823902114333987262121069734636618088761222710091740329805209271963814730550030192219475283676640766364582780673597597118283110743784048437568421140717282880851120123560591130821292740494743050669038590548537864606057980105260165046299241930362640864376520479380705931786582907026530014173906111328862041763266253924393573992764304580808752166708020182185220194549761160926008190600851403731481264138572572522190190635452613276795508877073594468834942889140925361604311778548779656861865620750114769881345225345661492514776589446076744665391963942860083806002857431408805094887624102950541425367037483913994977861012183866847111419494776989227053675959069401920436434309333983133760966539747603083355808995191012997796331111187054039873215868204093368658976726991565733204949094171201807948998631329351627336502531469372833457527704332572721753155120587801705632995136934444505680341349054999837264999,
  10587675831170345974700581082874239576703984797896208113229232055393143126085480599409336715626931639233125879464742459066038609068119518560925725643483368397649851188410068071473942189575018098446857081775370299694635371389767768214911996756064642236574346377628836175927258351173228773696093555241445358551583512412959047809266843216153067005336146693810774557304816348852797016383930152668685200728883518518167970095355467653034838047441162241951657778825192103592417405127966285986501303113143721017904200160391639352383045765217360564904136080755579962983148427111431295142717216093870871828255121912589329854178835787211705235709480402070140869289431179147869289241601570632772322296466454402732639725939635477898119841328589700151963569910353728984697370708638075325740977688756564130020357601734146849967642412446768515536073917100945098599245059226061527425041396689279594403375217744633117529607507528692218406372204754923868954115382756175536785389885951734026578748470014064320508038804450115900067020815534944939056554563836760330639588378231706397169344492283456082978374307588464793495554065237529278979095057135098199321978171576514796807166156467268869556806524668086289798107805667553620170662017924680119809348313348703591780023160672889859483545,
  10636590357853460440050008838266138745276601958941601148823648902035524046100336869025732626873682158442865872003082688044620861075096227017647693526929682742520510994941176797100304794413945622538256162024829685151206414092211459325631309058477050280446208850613878768559534620639042986591046887173393623932688033940051313347074752217003451608211978570642131975454028333670995710700629147340300696803461243277949296513265526498285027855513350428838467885711725443971604259671943582550420850698252903478922452434992384874109557510997584395034271192762202356611899532871120841004501911413850061886426267564872327880444043234866174932566748561423570001123556242865488957488807143173037226371174199149568437486898938957206919831293886499205792084642456719842896731497986885387433561955306563195622463046715312524863623954131301874864132843566063798467215763393327989709175426176159053912287797006484069392073516363450817579401841053243301465832143984574466817737283557840155929231172011817586907686985272254317694765255627692585885159410667038174190055550053935040917863311624596900486163533202100841470177556769332783542622551337814013235873725310900490777693583468774471540007287445158513689113191228490419432359831851988190027407589593615797369249573440860454006147]

theorem ssfsHigh4_ok : ssfsPlate.highOk (6261465447 / 40000000) 11764033380000000 ⟨29744092686687680, 28690879762152720, 150062572067956380, 114866035200000, 258448579200000, 117473096625050880, -1227668142103743681, 0, 0⟩ 383 42 1386182204216964277369441490176989935435662477862489485994112679050545025552034369349368027883485776903219240 ssfsVec4 = true := by
  decide +kernel

def ssfsLow5 : Cert := ⟨354, 277, 52, 2 ^ 226, 23166443893205111945737765470013173590145213323655299740193102613202280000000000000000, 125030136426032202744519312532348078007871909234466418208576807237374100000, [
  (0, 113487346515138555215211026214860122287666846806759906715620665950008808783408710019799936075798898980098824118004426790387280092879386609621216358486464969889986151546299180227467266708198394662018369096076241035884088241033693672281903285893312256759527511799448435933696641852917899497051486073123880219695782662648033052023399881234739087091759382024901803720000175931654456768936873332524567087182845059236091063371297366441857113181204283068294089628972804621786298694022556133304394185092106049477846440482711665158044490280081885770120115717903370348566024217460915994425044670010018691150897443370411077020759801727147892034989449555285645538947873588194224695669451583008378641366071448531495510201462669002139205710486313033874842280803569438837329768443491793215861679312172852282588195707483019887202372492424707329006089982003076723752820351230215173395671430345524597202226544023104103285238469346729196491294424297312044016151327538485893280218711213929963593957355374663840289501807114053534162983692946849047684551566993567669482274832803580426311282996652003762521524384528739579131083105195060072796457074756079862242607597591425394909649945297458624080652515096331770279053525333945342441201447709932809087194348458596801387354740425513270308820485161075164744231761537145105493399812199831059987029575076391461390804071600725335597989456767306374873279897549202212125504447899980082740408976193530873875126499409712116312159234132320850048884574642056304027400496257988047438913104754484852721513023284012814242185093190605577143160339600632259),
  (1, 25199254109386876114104834847710442675289521605184178156496541858011685329625635354331219768339270247642105136376173059587350529415777124283728728964408532929351909617213643417757975243321505108853232605565710524558044948055570467883957481377639340202947727130197838024285473351122147378854533501118967665475048462943743905322580943381197968980586361015306871871919103700714539260504693704317849957822502690740003713442633859720133911565349424020496136940515493317190912684016231430511026986610233214393656934212593099081110380860099487427496271485304755176007266146646490296382997358029459874094180726387549690570750628769182598280848344819255052263931845531178941655427247666873374644149855194903096475166781326706731175074667538120659740949346176334097156440404382271665207690969920323446920257140744188311379750316571514791682201778809116393342396450474424573203458975404441804341101157358401951689003391556722605003481843359632752253591384350672114279347722695153138065115655053688210083300013717627160422417298582053795276436285312613511847465425539838958145680275489477716220490553301963865545242697268680304512707576910227220017648500336872777065529017052138084578226327761514571895925184727067080900413444816868418975858816636132591661483019550844690946980476407491629216260377897841746889998680894393649077413398902804558193121058308726827582069493011859436815659649233797532705216949801319250133769478853775045422888239782850763211721563715809602897202558422150655611450859221688534110927686998133819822841029745512830948672937871760862068),
  (2, 5595358402764770549116858233120001618783314704282628018293441140056038477469547269177097893059227424175980674992844570546261335254690102667282497618796130030527061751263568075271752545153743597911517004504413175266574005692878541622643331292928425271622631110773895104389880947095337667542096470551985114025739749799389893585002821940287134392957544783881321074020148227797867030240330270182076646757021875753706028852282544974510440588359279453807141422927897524148368377422682856504915937781694993690589006600725092238765007772818708501741690740522683304959883685954421287902202563278816797629944871644198099028199085060798425607874738061712455630051801183909203439438776075792116581042228806607419117523750325114508664014205660071642393115662662051510837534288417911719954500415310468065844222648148749290513589820146586125570421954469731171496722364025794379506128932912771628030808745969524775013650502128691884887852472802305999223928289643155254305810303358022382532183957830051997447170265600203678981859336399348077050727171689557372213664925896098658716978297402716617506907091276644335915706195227626963703830377918952100548895657091180948997662081104497899478601216756288761696709390101329095265577604970479918003885020810875513053899527547844903455114852892333987902824915053809707114861418965444940451715794868797990191333900257463108190856910740267048351103054553718942779662994051363503769233030782121459080703096555816793753970793620773122842228150258737475287483610871038169957852216834781239687773551422603857787988),
  (3, 1242419139100551016566045576134258286964522763005957602392755757594903090329137142318930964401256887628594891939383465288353789978616753738006001938174586479203737910262861257545088391744058165869847986225284975657273944710881297959342795292900825375877349549896220991355260668956837295949183040341005484678784217154814898450681920955329866333795282527035311587047510425794923188098231630940476174364358438598771264793111549080411605694409760973758619047608243454883369201174031506560480315463133916978269488272962066277085871096576488134660929408913103721413553402354190721287480160541705911943851228908966981146511567871628604058531115809269548375181226086916146631407761328172050769081479092450163925527606439890029609810159513319875941752074687123113529801891751904341725762246820188835085503432469015764839836665761555328266576316933751078190832528591509836136594093797825522186593184585070447877778267416925111514501730348897740855223933891029553080431730875501488636107336286925994438512237361535424554666768811406962599196343579359972979125469037904264322347695090572138376175868485034738265945903503020889277945152111549625831086597479234796542211282234443612001725201184124039251212750055018836271168030837755411867185987942705714807819049083174163358813219799559896758853406117956626885797544201319733011559922378317692260445266334528243844081530587334366555291791327136093444126260287999589387775206070983044472096138459862625585260000634282596260125129224272510701283130546684108620426122912691843988675849),
  (4, 275872467302568270082973842593481474753539386419441611613405851804830571725700955965505969056618527029868367871913865905168051728271917763266335481850346939559998434618290954281425253488124610082708129421121412146888173645421121205814073157167977026473454623084396146483767591539121587169952237274323479854067577387232020439059027225915849749902847270697115101226881018795070061847404068636523724498537071958779098415847063336035054544629133517570496532623558881569067192657854905882652243667358830834936715595882399886086467724459763193239130902580043012670843756089500732569293022909582752714663294670013020202470222850840854471775337915615201988424728731998546731066474965857175769927167410067796555164674602174136241490600576176030545746767350935925815123446219650487590573840994505094987410706092463222510198137263765255475512641721775600427076380840011319194273491546255752229770286657304510897256703393650122987636703297844654310564025243304067817955759753565977473517205653806651171491153463098192068106052344923153387103177008432437784788571251552127610752552149003737249473605301136791678903524667354876845602300256079739745685229956112084501331463497701522171256499133324095374623872509606814086474709453552482893254867365273544913606017025998698163863872530414787216216708057526741119962276620748431116867479880449516823799391804375756859610653141976245145621004629019909278102365425676293586731630161921428749213440656419261180523450224246607859226743673774103474409616451022586664637427162),
  (5, 61255992988565110399198488556431513123946125118440423440536156209509369101677120060029156355516572889017817322692483054580596771609958402347123245373074391207574426532999763978088625693157056232859927468234442007075871428611427243031974368485601191046463930162888636090252429410640139395300217548992025725645773857389732383906521201166616668839556256941862098578635473772593719993578128736347644445874077633136962855169469301718749803476241444387363523013381886030525175952202684753879275848378053344386472677114264732885737189991948105081497580355042519830812662792389747958283775063168889051515404426783747535925718072591558206937772182185344287722661968574338882225285620974928436656419671344756521720417303192933731677922745752893737781626220646323525658459754285351737507771143182708381478697316264079418764687315965410666343806270912682781675814883725324106419871463917429090239762482003925956795344288506489939782134125661704854744980615641086011164280959768905341998716360057383127606971282902299126653760356587088216670518570752869957866533861436033693240332055938089755305503731776616080786283239391135552772498830799969420598135384476474916243315107212588259679925689399477716656858512048558062096854576797641229808278458315608564314648893775695810996391916398226448732877856375819668466840475233017538579130147815017129073027831181081764453514328584516916135963870087372972894561987944831298958621225682108368216235545301977055385984780707773311595576557550811457540740967232),
  (6, 13601562763534241552987700550987373586191407367447644706300754034593799226172853679361667203792250234273698786722167603745332659395181908329963437148288599774102127635700654084022256039002910300207062490566381645006837642314323771913014129909700211553254594604799775018233527540806447639281156708784455249418278899719604929401741388672802303861112096290171645265040924046103919645604924440709768822333734284567184149242364647737717577803661617507333951174158283724288861888210180922915026127841232748528324884541024503982078614223542246917440874278307169673195142220855993489898350049424158552762845180513107437736059934414853691330793433875848122461390663638241780369830079941082786802330401625232049532842165760397323524004682355637253786431625035742563506672731933251894872936829724746546359634023925664987177934291697956278820698677175876459503392008235895949052364212081452824278297842174933961187408363706695379512721083819221258651543564199559235160413012119989233124133155978924440570043961156530243868094495092385949680711781380405086879532651957855020058952830648363740603624372054644279992641402746622611115227618195686062942953711638979987462164927664398620000007072372808619449481182211704698779389515473525890202279213888647118850143465777581836949357764682794036775009197706939153145520091413708662025847629781981013926456857549769778173849073620828558285760204365706863248456444232372793909812150353513504362370909020513054195693268569072915722194607732385),
  (7, 3020153630111324919704433278847814119537270407275456178982713857961464469435791138970219163987851700226188858455681178956533225691964205507580041809937398361189039939192521881858545070130789900153907226825675410253941375873418335198394188309314846545953075442809354966224188451081187493654691493508222010584597750351054434784157366302277969639003638313613015287501103129316682455867028885776805929952838722319568286281815712530158348279022465890106247836198107745013283143843635421369321008003738371841741344675626956050941385668907612928319039959769681305338214226600736575418510154447152863328839737779241403565696701201534381915851521459772326832531979360010372427382306486319564790428230338217042281393688864207424504978717698503073425262450146354572353279030375916244191007373552190889143043002031777953967228424812329114260771519591464858290371342402730385726476236159476975970217633731681973687750653580707695708067856735292764032167606921393245204748298683039949918860232125821192332333744840868496126981190141223663987632873078285993524511421083050245547282275833253128010364199199740969335148289270407611886670130799771396245560023493901256072737787316665749064502102991601743705590366570480108264027808272309979161265030370693485718812978421932110082844008077014038351869205841982868651879228976258732132721549233526012708687950493354734986634503638221989378025526841437710031185272727239729431142377521330736639588289101115608383250272100858448),
  (8, 670608819619753382133925172301313328193709602049649160363450984155364102584850468723187603668997481859304142120979708034572592357958026953348378483865328072824763019931254643346308648202571148797362920010995115106589552403239920260438882125231011564844531571364269600334470816133772724146511852812255946336480841654269534443547060992662491139232441218956872300498469858723189833117783908562352647692839901154672755102602831067499254116152526740663695131116855381510261326101415016447430682531663617471220337264168814588911760084241589294172282987294698452207411071510988412890248758328071888604003396623754079651886649802716776518048452871463549245608081579204737003768869768366046440435839278433967277007542543122034073973351258834874602358209584926180947045639377000443955280102646635134074185409965993201811277057436111436577715410819699148427070023340692822687152006132365786794779085354961318440596566490911558325331333375341360578370771125419374199801288571810407061543064747470479750800407246534866274150030286406827440080696446858381063242156977650022846938805990759905882123503182632731837510389641178692851113821445375688773642592793896820295689255237958590909315315244992008913694293560547782213106154910261886968334412212469253643159568826634799545480732349464755395645207201809304592546273152300843960143448653915335412580894528156755650956636857526614215179409499036636951632485690047564764360396118523190538877968710747711833),
  (9, 148905070410689117737063749888047098191122602446043142919356661932374446505320886262710683740473283913508379036084884274812022617008236071857275999483955824003083146254064031015728284868899474628000352106772386853446674015174880713771977645058670975835729543305616391236394758272473378632279770674880733897980145089646676501237962001447838374538502876045953103471013826056050747666633341161356547526487983645190534833751080088818025403423384593359733241987068252696517403495490962768498250760771687038346510409042280224114570033098669673293616806586759457716671435779123931833322940217703846274901416734422637590778777933616068296720582661926894335498297215923642022472706517217653235317593817016728350501977115383034252706577385310116622392936495599261862338354752919610450658822247896324472247517753785974679882634781562635331736394540473666772266873618251625829761793567497644337559734038829004650319827226236652128016506971680255342480249226191607825951569968572052014077034728337320498868362104083762442604616701713226868567201273310971761163957730222398717837841044213672827645354117763984518254643934076470379708523013666153152473817226701671571983837347533004731260914505672875038140953861266678203295161441133301508830823098723309635123661736677976029301696028439980006738932493471105400395967983186553101681852392422037307322278326370361392155923522525687243963043542052688751547536951268583341058862487729961681491),
  (10, 33063566909694026174536934159430548432166025765167940977250394448342578541850699882345576187182154043883705022298540642763664526624031986789215655353378026046552665676912310493651975614794414524916199260173674184316248309466119306413966360682280283845675035390368231158378946614549725902135948677206581429091028817210188844357765245125614971285515848232616255481986967038885238690986853152816767941248704091364972957189203802308709852229397003013719721809172138664001074855663982069264752719259052400037760633296450751465233434472063347638886186713611907904585236380788245695991289036308459294265258136985771969634991230210705364305541559102571735541961477748391152888430723230537607798333393507203975509834486614760827483883109780663596274791004513985451789023055507368314103300786470453721985956971572282363744881796731297800368059585755933480713476956257453094964043726003942062469022171641006510183345067787262063827756011666464128070941777619879737417517681853208561236386087351507332342139825655020636973286208444548085694244938191697143961973590462568218596388650494725195951301000120886990226050997577329740866885963674694216548192324022814975397126201901297330762891829021311978923535926405863262472206915675836985154382990102598958094861851232036057523888402557300850028498899182259231208998101198170859549014120877689258463743325203389064360742533582978549269697984658001536967217425471671444718159),
  (11, 7341586826088644895533322229854803808797469941367114781995483591634905831264160050705815215046424719997094541025470469391489801207424112296372964376964127528236035080711160597620308646180768609849140669489485443920441510768213617872231123809363665157088651127670629463803338568752955647235629412279603288871783875489439646952020497605560798743107198467588279378006525993344750495993126827573348124386982310067588709416356011661278153758676730996168286371291825263698494647490136542193260040900176434177252335931340746301538984062631348940204361151877641601522631092352088148279373981660678811697244222095537717859776591784178702371965384715738580438407458929372409005659487647909159467160841027678250873554301230486254370177771700947884836502449442436322129492381531418386735454877673059366842132842502637615941163461224321143417396067878329437973178615721711554719360043685675951067045136800662005537573045844169090759841773591787850062415812671731606520258323039584784750189570400877590457582727918901872813528914579286851468758536339781842595020958352366978442612787103159278794057714616836390497144142169023716901442516081315068204312299811716070080163003169048016269095687575122876403274572410210797449032568556460347373218815002447320379262188435474501154303314139493612977258002419910003042083888558218152250307324258456267182035340750791922224380394368602832378078254605871837632383829),
  (12, 1630159740427747858899451407925063644825447626576218782826183535974250655578912800056387617770649883517161615825876299407585771912667528894751910541885145261695868800647080542953641813487720333709619586816119250142601807857615553641579084829658634121867255298616084061340109194477516146544245658703371115895526174854859785719174299420026799943118128141532924277433575089394574536551505848176605886379560691024890913907266206274816243360436166913835785636844584779578235070802011799532693977823961795183764930607958717915795923556645455460856396984414556899588047852020880191951200543087202799165730799948888353613258767755851886979362104888733982744364567838206325881447935560238904796272937139561672185568422324495334418007905141427675964839287576575561921840834326369844518871010083997830331781553768397964345241802929349429880080367368035167937073028696525426461020729113260260169386464175314571403463682047858885133325460535047769856226053920962538421125534223292993507595356787955494355129717491799574770216139112058303809582775667075699285539177495247954854261651889106604732142065290245478609026222008924670441270426023601441207849437776964290525052467164070845863953779557670172539951886374653194133952500234511252285692139462262094093143007524853480444328378117957341620856438809958358739816455666804963261400859634389253934319689467007349168916955129137628618390865176),
  (13, 361968174716750893146177845336319158094895668971038907685563057834618085359821398392391649010132739496795465154577888316103212896569791754101852414166289212998053123276730861979064654053657528400711968997974877908335873261498943591218531398745125966700807399699782425452011945834290005553786146082509223820141929666642985969249692070408826627128282052887181162959835831258653032208892528497180157920185778812685112693688914041107312989677805768711876891680008695596702629405727584388126516238433314957346099247499282702186845021762687565207405402573106369846406259119696064935910066951195551353055924166989260542560512112482410417010601925159642136502262965495504905873817381194009094967430527073056284309072197920983770594710082650854877181712182268503691723756424996020518804568460635624670483201295112026405682898551878323389336308475052569904293687366113117209327285975741095578385104387760737794444609728898584039796847473155264016122921892833704333038040961494490418892883668680344119426098906201706352339253295263973509117463017356011998419467746905661647145544856253696242006945226417835514919305471335668669342602615920464264970611490237834102826925137227114458859984443314041798111931236819225477527769074935560496329015131334824028120998495926075843450881883074087303892131286578839294403865687294578447916889212961670373731950516050145478818539200907),
  (14, 80373080504901954758341112144485076014826412329464436145565897774114799036170496112686727455504259844791849845796644604440953791544090985484129689450787303458857894362386737514593795835910042940695993885418280647934507101234383816706256093625789458081532892375258973346441309338746487415683560391876708043750747311385296885516508415588017340400841795689188518250893685887816223388073281549773672758251666950206066003577697371094079140426415544374177172707033237055825679745876946069041838336716332665940147446988792441521890992648802274174049120373819899010906848813237645388657748466459107957751487658452714640846900663555333921551824490141826001758169287022474112270473139286839811893233704837248381105624783940397284873921162276366892613472546375101371874678055429173810671927310184688807470162642525211189844354682636867526941650178524702313293624292129394501393355077672009493771952605044962074350934663520461344603198631680530295804396950828484050374683288227489087333861667556130342626685074344461724951096934890481437443049319662429698570554241295403089207197390841184915096548710152840552408739077744755702288221304501307690848452395671998490544516218425475761592217519763463943925368571856257276204741085615048588646467308163716977048684853660201233661693233476841665932237932989880121466848499104126701504850723193294104252478721879309),
  (15, 17846408881498838648822003118194075292558669116504172878196207261544445227164236683646034100091711247771470796090412250145196935155290133428729263073867021128582852754265270128133301634602244349145339360528844018831373709531406412012319893279799837045836693271996073466677262452428219560437058876512352444905320003266502003152782955964826340556128472633724880349151704224609810593348797839749861883369052501552880600704735162588142022665081220706469849551168930778982820324570738175956607490786028986844221809192910020761873975548829429244085220953188832571209282014589196657000985237608762637848625572952605522625175162262009958462923079522256885110023801538033421497347044018744781740424630285653103544339034765294102787927395896749746556771954349825593150045812497978963727725579608806849168922736486563869411339722451966638327587296004977427868723238953806628546149995207429864772067430054655405696110793706407850951446258544782848164096749595758026171154189482886598723012182288444660467769869641783091161999602277210849756890308284091027488516280481797622893317800339209773759836919951591582735557233326964117474566885680955982324327869575921536803853552347469702150754669334486433459926531601731084985300350552531370949035699147852043149637725335066781710139542238696643360408331282558677758768378626023631030213628233862194),
  (16, 3962698811550189418026808126914669567485493446762025537841504017960181935703184388322821737366634118022601451176218287604903067175712727536750996803069397896950880273836135577077658080757634513820271531345508587172138518133042157992048931334705678149090055426720910536587391773084523146364771115365672592258511241667170788611484802381344487054023901789250138619641316825382873629390929201240127325735766107101823768315201554148432602234601571530738538667920019268753110363107636557495222693950323566244349591531817866726435031375135261018892054649061882697877479643357504793562415068199941842818778529463820615797344309073950653728261958580198845235678352456677187251791843407859420111103401653097561995303046728065628340457786970233459164277358362742134580539187945246742407297390838169053011942401779249667592939009587413699832261731979877341277404766115251633936884207614519818892363122760581815691226522362556071861543872752344484726351660461717720582430664629964632315792466463867832291339081314757568976812209185782414390381573673237921794225389951942212977019844929306855682170034042022766982516458949703571821319963088977167294925102589418581185117969836372816603711485015309796494306902662556717247756713787327547609070360442126430622210490510535761400259207731335784255387615420901569991265811507131380047),
  (17, 879895891922849393003825800307583948516321031682554594681171587500619780718785605792552357637725382582595063158096764813208399918937696852077540472565574720691692621299252028406498314325091085717533107029832781125279504903240288215091375301614759036840780115444259521295638205294640655683883465289529554132901955182810762172127098919579383074998546718907916652095554801635611009061385758149990939366877063654206903509834608024175740152350757813912701671279462542481834974891843641244369145911343919079333803759434682515469436663805706782961179280077506265649083105472901654888159480861748907833950309570122649590817101626589617854520848330282551176104308609297754645824285240360369270260304373159716112235423171977802735388772950766018662037778560641993430685701782322219483680829497233646070040226154383584956719300396819085483035207711457637004176407307519957340880428483871868185580704841564853194017091192591116369540392656384361040652320891859005352455618381484074834674646318890925008630595805626946676995212381416505947882264039934622667071848017593027026024421459407881554848958116794018572953532474882971834662871338026492380841576873789474682467715456505180479072874237756659838102544121724301440466874195310330427276587345550721861504848700394658683468347604844759269104762082843361565458),
  (18, 195376135708710106639357775729258161163457076328992318753191187714488983048026802383819609037308086417568499727517867810621488572436516187785283257840616087580346876095801019434794256503570522682997215751194011712885981942169586899934912001168203268247777294063041383570116897892901016233274610590661074257044879889410546564053285826653041656642113896966264911669496908882906068925723273798483783553245963801096279637825711750564097967036980676241828195542046637321016155432534949722894936528490852285655968406419959219971825559634012462009453239691132981948579165388709509720347500872259886819774426201364306673964370603680512070766056748788798761058441570251809956549762934820121621534405973733257587010996035503960112864105964525431470398497293888355025120359926637543017364518404581292200319117675748890601369899010955967745654074626254480891050395095253635261798522446765512354082455907056729436294452917683379944135600345232635906264929731049656594423032586141854232224353862634356569739039288991114275535854875242724085328471695129188560405964637081324406268686352125433787239872260128447063245652060321445011026620594986668793026031520747979379672305448042898912197360859142855570952448845637856626656302635019166080342778761203899598572679988601871975938395018370126672102265),
  (19, 43382216864080606151182194662000805956834315680276944946551917936731234285945993107120684505832538521888326955260642648120529957171330428065353733591515454589364929829143431673670875787335919583911435784402919421141917924466506293918914908505515800895099332500952534978937256938134815469051548969036313789840155003493900645458324392450928871307071930038447607523668554561703951404700422816408309730903153621696047946490691590031252656471796571423016922688923582671131842150227639108454125751166984108314003521974016932279369924686921369644346806756500449175214432513184746144508446864368431092559155770524373113950690449389878507541542108279481713949817399806480234937833483971237559017466640373696196409324481790991460280893801513214054742040008447450993405354135919369289434515718708531572090102175391601942859041049745559044890349672579439362282169062292938578184012826069165206219284906029224978471596648399063858326878555538715436626718224700790759011708411578743370137573058724631468093442901027279260874868973364188063695011390967985709877310602492124963362670839882381548798445021229637641872381440477540069623494241194807500434364266938989556391726387778273348122636080285845792348856698702666799012592343539602458209456523791103661489212648815662508672668083),
  (20, 9632787204866502153343920187985143665772721385665474125080807507930607916102515436799261655236342568395200008584220319000058538953412128392285569209185441108407945833907365651063429188326712237951283289772195202433488363169363248686630975478939246950973386708081935688468070716269975331827276478679800211010048375995685464579119617819208298081090078188811407729130255463516250313655963788303259226649707653249515971927423849247019570163225761376706406425509162555527252097593665897845932496805415450736066767915336590837127834681934361147131720340742824470287402827467837955545883955331425416202391706469926038480976743455801575768080933524762805514598876932045250115607792891259053785147427456309432829059169084048424713743604072774067516628387943053231955101950182848466437361226391179864006143593274647218419504117743186351056740310453145398794264247590322821813601560898512992865042376146105598596189874183521722561880102758512717304812810709483657846626711674266194679284554930471923857118571340937135850900523552852388622226127571967786690387185655799569391282423443070380150312695998512348777989785724601165857977239615338588465603784249841435142894168324516239975452852911365891639951992819589975956570539166869218386971784476572486477655655382),
  (21, 2138908429804271179915772255716100334560443493498650912926337294943951394551307228725325467667363317997695119326769973612634919962915086406291865845685228941246040015482663341993934830251799980661392250014199207512789580318574052579424737375804478386013149275243228737361968852491212018255479520654902218323005099050238224513497503788526823740760765758662684370387168301301865863846647208001566204917858411846677288210553849411391450628668888029792662674443063513363210376577164972271438821225646542940883353037396204616452889157989027639186588732646512331876857705862771189222169209052655744323942458839349108846400820635479678956074805917793069197740048406573026403888799861654113961784422677829745357508034193802285035936043547208713941456786576393644827683384656322791221023689310682403905167401785704954404577628472395954451105097950773397212219064833465669361925333699626890073050255632667176880600513918265539535226859817129836161331038020337650736439150217863604699553983031982963394283485090412653710122498651557068162442583983726772660000727290696282831868251368606133758837800173345116334763687588895026602727696513975467601181931292922640773802690367711641134076139080819213079090029218848053150162692883517561208959074115577),
  (22, 474933076913046318102113707132237498639519230813663452530032289561103101853870948657272633354099123261510004343212308773780953573429394151683408475108619859394501110245081971250781884454078996144304249439894948388332659101855593518167296225663265000681129284725264514548311676771435363829011594522593557456392006631908256443400809884626783733740882768914695137381709804535490953460548704595355015691889012815212210456355444813640028231062938202209315327964570016504551317523680739484455792282473731920246471127946916931448007948737575152098898185316307673906686442728926772709855007109290005349139094117974955805442181858937554817874491574612995754599734843751217349190893203837993533696438667682056799791756021206641173852730886388976369704000047351850151604012644071941738356528939748829784601519236866138258226832178701867945587802436302547429834139764881776542123954214194522736394532265066036312055516538767225830547114762038459738015855107468628617574613089530084980182176661214128200298028046532040814943710177136038398469771983963679074063796089930357179489765244749086920578829546162676135317657309224234772942296389912438689689248721320508365684826589728951616920809900304365079503622138965840902512786949418868),
  (23, 105456327485056416385241797906917098708300259216212188960063306680829292884022172536367996797289257933536487411474404834709361104286587968731215647663818654174060864563170008337627527079403295469987547040129508390201576410858287281785909967615396887055339769544254878093910293687129963869306568127339731293290081668876167891918107099314288630128267506298156730272637120623547980373711789393681533091117399002676602830564977050111871449064147382407041832835516239782615332450195356281352638013403641365185246774155161632214472520999594260422868205925734190878601722517159891984155669302176718037276137556537234239934147162747943502162919128596898519145435667056683892775908949802209644373060527507581259010768279447076734280641073012029349306229300513331496458404750415430062568411395070783848580887118531662586591771414029093483483877104517331183706669748599071551237482101714832042856053455592914219949966460937270747503339227289441962240492398463427687953273535674512736757217918172230452273175840548954844421955242624738094967597212693358377753734251827069686454095177122864131854153978468549873834194888160765908374100420433200336457728496042455362254970691993175212819246684983640142436515660792890733),
  (24, 23416008573604903415317755528518523420335514565231628332329206518027066238138019092523177366990239743330592570349607521228904680466259820890984940341858085802627465982531763838237618550006987352859353606750426079525941137960079123010320127841115426087671850355050587162417363334795247822835628779492927457051151838113419917662718487576711827276258124452564160101729063749842637852626470054236683540628342392151365129765419368141233981612293451363814435368286547992269325884950131078283237438156417878542527178227017482325917303763078862308637899280766753131513016420772208646167970945990823639691690309324239054178614103602595181016003452951803930886102308926696168920870558923163599300909841430032857453281188749967099685142371877758520584744337698210388077703116064474017056938673375957233966807941547346752926001913830031681583572548605416879539053220325523218014783580904477861912708093652597486556212494306406660430715010734048460066238267439900674704585361312925748705041463326151329097121432182138910958388580588952956302939933952704289295550131629489462618291600238615168483117244585103871733201668622221072456361895053511599404174289363616304183153916340673193765520289478653970116),
  (25, 5199398371742503253554217067104102349560682995892741121833104635237655896196975629929446654119964693644681870837669420096302727098744826953775442614381776271712500784236375845758068807961400289242104050973510888855573964652525700140214976133854705257833426010878025150116062699794459507809165734596298932364228079506039113733524362004651791020190498927192857589591205325727499797948440914687961488902560796318368560282410161030854282283346755843802953758637568295215020416221048428532005444112341734496338051170679427041882341331996413752803679344829718153844187074972388418179165783846170708481511002716678187177728193800200380790648402493088929025654471182033275637588274224500304424211090183476810337591271661212637727661103878108488334712872198563590452784134679827437948485955409973319550265888148607976605581757585839034425065094129656654903003649349764016811038973968893262368898808474265200803486554231622918031906046141321956542259717199685547322105409965657268353416150770229321262171752713734065745758985052873883589729588798864945587549786526346318851983843956178487585614787831773016322886841724860090918137139516810489510694922823292289644563457247304278614159),
  (26, 1154498357391125955941726717528141856946038142725295399550051751249703013604349602120055202359115886205645977421833243548394360327701249964296778980138312075858735871817044961066372982051224716500663725590000755703775047104589192269383341473540083822586394567663498627802063174121719404275838566981679078960754000135914462925629534201032681282509092474327797938136552899349481181724816758109509055035853944187837928651498062583873470708723770652712864820091849100147745469530862425558238974973109068079961345160465654589882992226348198603412779776831278689691217627847406340966798395309757156255578719782386237081751401591517135160679303883888025330132525621180391612977892246461461216780880439724881849694339331822714925840493772648331041081752059632424753264392157260241027258751450749427727390193545543473626055204725340963887425121997026971350123209359774938334798325437786692265198929301814485295573711873349309358651341774181775597765052595413093710883739944353555302391016714290717213899033571423328502236601280891566487611115364698964014006848048021916252670538390368414668843135092299672272030863088423242771590862463704833607118789182650639979718576),
  (27, 256350131646688501777390120376666924533661504790183528491433810106934590013138784989160533045106823816299015643432911285112722473250233214773710888267514698749285594311980771743264913366929607496019069479070076361309807954049169784882551219773917994075688646024165730414746893246017080707809490874953517409019358306953702308762607357368463237424829827740969218292451941790045627748883423019832292237229062726072769253748960060647932329350635476736956664049193513961042745990032515143585164892380414651947208615086293926025356173285347605737098731172479133837892409886837029709864670304197862165677112518521532502802388029910323976233686102264777070450946276675176966360790271404280424118143792281989156127574808107485814540739652954623187326390300895219606919852210097766344768007042082744059684954347210752251579241815092003948877298007378615034709381373707224158702868127559613296762977434564746560658564992078796894506943696551809402284226294738231960565777525151715392307693026038290748380820489289362994043476147098381096293018593005547135393317925602346976059016546789364571775483245369291809439451694495240685982789447951373035951449475),
  (28, 56921163704599199630345491335505836703874003969846932052242781365533374588208033706442659967317068961958283475474688965680083813784734678242571206952600776158675223801843967092283732341022038126198113538975053574767511046819116677516366140184632481753665051589626351822600594756060501026215754315627830602088200454281992656216404444337027470772370882197831877829989796588143205947760546311923657885638992330936107565796773180207477578399403846369351258558604413239994157957170011206822929230635296000043448086601103108081001379092367939302095609663057435732218219731125212413448861383269196252581829468524857879207789837382933552551032399223034700986703929800378490766343867096953494313033861887216212480483079652522635175117432144296675782179267549077096166648792455254924766309757395423753055880062141379645241975788967739638152750868301866299718299381241237894840673434805044298939289631505750366721720593098366251849648299924908084188712775291537161862545953785230855126730396437911898979748441533205594948671206492450112207713554504477996967435239742983373924113053908530574060546583950616134991167585933992015617962020555),
  (29, 12639037306609509754518496031736434075612109368181621359771163184312237527857679980805564113445704823420457212484868991881396014255951820818952934084753934793102394881710432273238219320694571178956060162810281710280606219024405768421642526974000517881069122259387263066630608145087857142439655662980915729726078770836088631164245190576552163077376877181778137417044748219881398454927889719536866321927647643145249102199141409747418896062297821118830695188538386245117329298723760696440441190576194926960776342966053679119148660483814739243662837895545258036682582118214143883462486543325908119229113409330171241702079444895067480733899468151637105734180461290104667973621234281149401831188613745649142537823144203683461216209987895328844314375350754481093671573718742461584428092933634707229773002073362282548343153757066403507790292711303950987731254889582025325090202600843083627755111253386505835142713391470841678108037195797936183424546948540173427568109781248857447431452009912338817991829010275209140227290582362540359659858986373595236770538530896706798555111413411241637604927487547961278382302337416281),
  (30, 2806429840800711614721653290647000062012179477592326464107391185438469594882951566193030764613878401771501576031371146012419206399843038810841322910631363982952366455438975828403349409282739379809060864699148284255844702299281553670557363349541993642334931033897789193642546646811889599265930268039551033559941553488439102694731881131922702614171573415443400921069738971232595745404968062030034622842595234446165963021128466445143632089734559115644861770740081067088004294099918729164469736100422729674592615800483485532681152660887250464483117578932986868763436243125275186949384781592427851320073360769945947693357208978876435479927712463445795428386307947302719947523949121555757954632386699625047983607322444036340699973658604001749521167276530660525396141863293746741750265143969621265651585996555980509845553463050969791869070736922716032928910543763051404671762359303257223617873602647648218654305616779564914283495133685394843256317400825292730323877858474035308609409370817028852640981765558706906780071136354036449863214466011039298023455250291282094596432147662593274576335401128897257),
  (31, 623152654630554689829760832983858446444434821518771967717463931838529536719527893602813260048226417630636381425231154032144578827801480610128416010604165076041562193473989024400127055775443522863215123403773106255560341359427814174798238236533039551749096653569611857625599570125218930708506743975157501539759528359009716369637158471788900430131258907021491420516329595082453261976130621919181370852806806840815979640154072206679279321316155574530134222273156801511298597624226838801084276056264722420056425638944094571412372380781448249265463947365912212641174250287346152133927121144689811554866458757554927864828289101904496038447137938480354313929469849589407014672028115897853048555663399066050510581839766762254878310397983034444892845668900556086242033837665817298095487219465072081790932076120099555714295470295942426529065674929043313118393354071460852221697142763112812359844883020491307364096078503365990339542213364655118354605813492894098267111854366967910722572234097980427151523916057591992470709633096068222766413509616445886859704999062931992570285803255603362182),
  (32, 138367684325155951341985547329063757144983932935576165233526007877985796689020807130253245012672939554458258103562720666037571151184014719593790026846851123004612590776477818787265824035792435242656809205770979487406569335869111093573599451909817123148894313219526142614532440405308686598798271373246172321516224666629911583163492742000742601484583602743660021548497194043206447528275887890995569861342373019580891477104498641653177017793038494774373914339519912902102180877664227770772999961603492465850989759510349236262806261562398392625441269743985961338902347349633182083508128882448860945372712797782404919631206406350468854940247436872574993457360376198376889016478012993600492179679490141448524335339589957837128358471117874935163641982755959473972134527443778070639180765615077346960067670012859702708397302937424424277280021787931172902794547303914343994258700401048953746009425981430462152119314852020166583281828479650054373426570900508521053965896054771348207957370276607570526466421088309018276634034232232216211389260311513509470773342004634946033655),
  (33, 30723797645024082151968679561269948251972021913923258725030604102470028922313572956899651267616235771987306163739372406887154613992383965444372523038523109374628341286320401031843086244965278149181581945296041652194904016618795763132535871177386486331176678726424001969353095757038074672587696443881611257432967281819914442392717528600896631526855837342177408796375061867457011085511117358242337442948927887281626421001525283809784544958354564317307822333509328549816606924116217184205154788129180487234878882817051545576001041920466777077030122932002483941226451728254626248678912377389269383867109757199146407082584990447587684446719106474006785922752393447272351966938477193197044904611652247767634565380703313245743960805828436326257005965674826380938013620447602151369274042967081652995005874037707352380896912322290891589939732423607386070529732307142371519266155618208200394294344891839389752356769685432964891367365186497558154196266955592805013011720746351030242250255863942944666485122204590427468170036600120887406812046972865919793864732),
  (34, 6822053546590536288545428384168248322273364517280286240786556383968481420927330684297496173889510200934868984796477885877377828180944189962374731735576856850741856838645444762877073263293297354976230302133428174794164476176133878982428293065415766919738819746723704700915331562604031061357227835890131330131543300504404831097652106315651863534633269127043709097183028931135697538100326432860978486785863329107169440281244746491195493083039285543774068561574340821032492971181306496948659494458425682856333946729867287331775413999386237674650246633994303280751668948393633314147434749769339548393176870358215264670453649649931078532306311336373409847361521463884487963870278137916720908023369042232445209890350263547054788533881427231670962351027108176217606786686958296448155478191965917114356654308057836097119253420425017868875682187634467142260231583629637457854202119952349660553908907800485135388795096705144433252784927547522788377626001471870247138773230645951185987875475513194737818439600830033197395406724590460515853362132),
  (35, 1514800179547819932878409363498790041392390916746283623667738387699363782902501615640660931126088394593922858234430057659468677433579714498755563728560517203149686539340000438489263815644793896712473832291626237168739342505388902323831392917260234998971829007105138248065978677006904598943525810619313179599732714757474931946436495543024465726621622723553282557075922650276599714397184706574361992477810757050311086317734294985638516641808172686255944988117778958512009563529740864545532297969616208460493336079742886737054785426870726984434147123679792125167559254488468871875645044542006401188745399139313411374951586414841658560526345882676188960611140680079151969970870664703847024269765906127379159267568944748654609123138288597931644882253128962758342467540451821533027508066740765542087345959162482953287367666690403333658884430948443382336207298452230062982348921992764822837644131316854876259861290127997315341243310423685613365554686134604603966082887378984818061042913858938058513557441120075880636463430925),
  (36, 336353208240077409564773391610848159349510724159389918826912102972795522706221052164601353721223377052330587709696956521690029010164623807834431381582798023255592227929980467897590977758728663111948179946539638418998589803461867707563550023403646961623231995297270905676067637464353079679346017765628175444619479431230463818480232172469890111810999417418769377808352848975812424038848261503862665316163817825148173632358698282577723857400859990243849529538026508780270720537597350622350917816870923705341583581668616203548546558913438719029848839336116169244816026212942104189651175015645631702168427829319046984090838508996781052718140831274439963675501749996513489533216753727336340948267036598943371256976896253399528621296624923451873543072006072104194631037055447966998853933298496163159695311361298192877780669061114184998820747216292992809624218512674424908052867920307086978578748658316252299810196671272484988473269520595663402948426984936085591777474965391839838240942550261158237722894868281),
  (37, 74685415134373525295830942114358963774846547494503382913231653225911544198668189741024098805796587514250473633805572406511403274698958023024784905679292872256179333543527703052245501914671573648346804358984209825101359311472989343865386837047957354167693214090468081107116965362891064963787102962031003202956383868749544288362602755521273187230480165778272181347766393599831665808020740984471500319878259466382411052312895832479353832833183796484081276073944452729109993665936297032387071312571687315218821415703506404695469146486302801225638794734202063078775334804761656641312692204356982351434434671489688157446523224732267071194775552474723820122114696445481292781910727617117025471433987860649718944952255799910434954809567664887778547579169253154873179399131900040721107630364026616122116593354226426203778209645977498729943958704256839342897525906556221974236936175499653606115371927311026444271535044885775298838910448445044225096221927435695753787791909688313088948976422240744),
  (38, 16583493508216529372225447936828198059003547613645199960667044602223282936122003238851829955456243742677323926737753434799565522143536544010872311926362398368334848882153068072077410982576071422110438943160612156396639844305123276652678164718439132077812803520022451413810743453376948811100426738798584484123917074560410306008983543835037623524822324513640425512498863191889687070522893143184388422040974641114278635793240609509705996527517389358249572847345611265325078684768718179426431764390992428974343052403059385464057072080854418652059573637815625185228066159273221292674122634025028259782473992120869723418468599598616067328494961520501289027445010041942746064101052243468009108617049018871215752763420339028710842775546519858316758735905616463046971020374091106052590546382391061717840913756048105636884439368612324943646934885963108009777822720621344866013594543277810200848874163384424220279614733935140971073439327698738618346124225342437743211382075763898136),
  (39, 3682275263261382403813584972120258340593520490254359085376001561407435898444780039923121326270622649595081328024354766787259002517888144671236480758631692733935155165004353244043129920732272513044207318976016532758470092724778552129453837671033264731442036964509333030552070054171364160777905154830312088546320054065485562063076912170170807718526551081692308558819499203470424109523867862864658170160383994864054088566941984181687911694457851609658914539470848586795269129613124561637800343635618670478100906776760969441386623079205385206996991211798932625991904170830868465826035519210891212691654742923651596975197209327487743249460747176873443760707464553211008845818681798176810012659393370082210147334473974759978284361752042376226056607967892635965598807279052595126026831309652214637087894279626733528891487634242156417565219397110143531704673216117114887966839470402732887747022552528245253724956120405539386666037112088435153655762446264568760552),
  (40, 817629356083921314672006047583983931979859824530859455619001461156013711380779030738506684158710883446581000905249006781252755839553838355114230242244925895401537235610529354884246362402711273402761195205622104520190543955979041841596128930799283510561235727018667764807754867766020711854507240839513743226994842279764876681037393588674936757862060236299320877171056553741609172526850849013907461727166921715336382420781105434623820308843039860991170524673612032950577344949029042110976949766274334392546547195340412090423019588701870670338659426397501428562942457614211411470315106234253979569944930938793735183393483635817605339711246384285495812688707645276820387428664887842681823458739256718056702282908387199111994137062088995577711707698784918892169263588489247202677414449803162706355203243411312447287146868201665342430400552885967335011510353572997023765343308049691146527292156791636623581391986558453468811360295696990479934365),
  (41, 181550187328672579334233971311389644510338469110734557067061054215511224658013243180657200563363994699018489006152171113887140532212265869948993896056865228610880277019564067110703692941067490650046182587635821569597209495848271559126696279619738259715951054178414085939478710821302946452805511728550269789355813268828814302930256418393802029981534759502590428114528970275793631920359657566847733971245845863871665555034353689937473051672302519444273482185485118713937636344411089814365598880498104514180754654732112268635785210788087098940956063864989080304280870219468187329388741224298690116926461066759757368133840502242070036592216607485222449056525240152458320910687598077763705155286441226473969378560163150804641442731144171481727270044431838358819072780647356254635206519831775556458202170954110844643265560525342169853709608812478929260516972410754836608603571704513347583650239215761940450064804845496271252521275),
  (42, 40312239633432789354548619819622956893991906621541046880589414035456232320633779983740351121173833764166237986008914811876046277172570502005915854011794763676517227143518365949155997260204254161712179167390643797467991978475250178828403057014594923837292102354853246215711144385828856361356549105318522789157997027610188775072036992957963977022654342687698552573591064643673941024843494617786704853317715507132606670289247271957875890128499441806405287359925259833795431049937904379401951991853522840304327114949803380540378151961006189050690412603534828322351169288833575944953929659615345114405661375897366131584245712548005087691189727853699346808390319315273117145242401144329345496804112171226561537092624910563436473233351707065201415013294649422575513070849255287270535518451612935274908476291431082466421180590650888920440706553471503783362959652766128480596730991156647041180406196388723145332144417),
  (43, 8951115320886937783033159568479581513475216964106201617431096690630507835863029300915573853328935746856872752750449688030379908490914521819191511557988347067715181290261696605146569636369055136769025106420992165410940676503735477380006137864204338882241816465167342522698584506076696031235064364158756357405395802771017096428253298154178406919457001420180742739547646981711874082409663556785499077522022894875202233547083551021775854416833503890241755996650085311038114331430932184912441779987924467407689735816065317952674595642878150620461888831685248202020252874381230594331946168115556666700871135992161832591857990583731364926896552897349775940794859615363995659995219656755347527798270211590319811632614548421355676859781347371746213677137925600039539681457928808446004028325027832766982503472535815657539418449177510725440174993929430746793913862715141880333288344608285418173169508387),
  (44, 1987546865099001108097159163304727040062538179371400959629704116821785719700330831590811551531522893348157362308570071952345822452744730948711609116686805745355305062009771517800035625937488577190989484939928635032087221058994950752876338367207375927884322524459588181834144315099189030706632459377160071605842968242177466488113153539599223436251012136014475385449092141721143084214395819674974622784380449099442320866571408203135293628660187164670994519216158424412019400019989781951207565468129858684417641377832127398484917339395259273368880831197008388085313124815423854860439149212515994446527661051045332403984571944837554282862953612868900074631340514186012610143573767562138741125886683035467529218097377646058848435483219741224551306704815556300376487968079628470557747369431922117896923704250333032409423483719973110563612041304594705640473501409962257702650317874680),
  (45, 441324058446548444016036891762720175707081477471993818273391466893052466077253018974842062382530399549671649682630486277139575923798436510977481332441080381362507236812782092620699203074448564419352859855561818962156396070646329479035148010570286475803578929647614346349078955715883053438544595738187205702462664730468113904970739835881246326725431399970931202735548797826789467933551795583694668366866477758980873479220378003505632812333002515476079795161614917034027235236097230033287498374501802935847653093808717284672350497858867895051298473811259167530860058708717795752916037658345820406878974704380912907861116767243303238397226041799181574598346215664100826345116248648719406529944053034104592425832025937144988659079576397907823613694403587388980364742432292296201891099029127762832228091823366145507769754827041083392655758223003059029643070896297630),
  (46, 97993626200315253705673868996434879296745328559162720808712870331030121746041714467766450989366560822452050866539182371645367949451144209270816316170875924579403269863186955878954036208048262541428392426236893240083898154656717861492532997922874704652316735448936000755009389100746879087289539846298332565917931944103232642788718179820071175372519208403048657150150491978680628639825335110057049279563475675012671739540925788985550793109053181649226306919157213763746566551211607415584545084792161556671958199504538530460359201608927984619536044993585483184071099861198539024053641766406374136441426575244902032568153787681270960386979887550989938403469652244307462343984112883778272065587691187845658126246867801650987854247788708302760288198218458121978660119005600803398678943322401363158842792432083800207883689230680128166479329110348637549),
  (47, 21758956014911212433001131256126116473659065925674299302003966523344098798355920558179664702466999201419659184161343701890354014545639773297007044460378744662120452274469081984804451623760808073916861991984623569516755884893524647899190532504478127966962920498620183818420661990259252624123549427125133689811505052122929668226700362527170777189208112944434291177191382714058205294970529119598644599562867184313005131959669915918551500787590046351007752943562469015977677021173167317237957767556181897556408302619427842526457188291557106727013586803782586501888131424533702874823026963027644271638532537011525919105395926908871158364758147840198227068024040316124670445813381954041210780440034527717970909450135315005146057586547589500226733171805326429714775930837180737251257113681537453828118393554623595427599465984171044746082),
  (48, 4831458791902522288998989215990677116408864522476775081575630681418707650371849011095915687446597576302025780276770872551485617014144500803771519596853966689010680093729436493598721728592248957164844879311237638244500449172360465296936550200644637617143028780518121567062328849730316998999371508314518900800679798985857435213035445866126766787712169152386189976655737870851621401397804260113181684993779676083682891019222832438206816146074635548619827080165233398443864579460238711963001859475231049493502711931592286952604836618853623786141421166513333668517295706851678906048857688321601111081535966602421528624105157391011515493016454488816606576796753418735671875820460539018233567510316028007975979687501278189237420530607231815039990378061626227309555654193663557744198717191029320439893195307634128557657453),
  (49, 1072799358660496965731386894991944927428570831624026209629341973221253403538861916075543483339118566119873017975671149318012048604782426927184649323735480377099143458284382308818656908174269193397920421060460437254056410003030634736658134349821572621175430728388165825029842666484265742423747183056127136027421921591643143018667810878785679691150554942602793999442368924947722799852461515610457927129668804823854535859274362146157332229377507505770074060949850089578858534592303651695004276424154972314836184476327274217924348295245079403835616114564191223052187293943009721191095221963161055234653501719304627624996008692610417407008562440307149524306373232830604468721360609078733219453601995078442908641716193109054552270939731695777728491908456770669326522484754607451286183281295423511170519929),
  (50, 238209317580693941438133310584775606697759989395960818043428093587856031465307863594527536932507223377846582033458921120851338588112904201750137772036839625384460222344330957289158724741517151616488231455401259977064709858926291030373528772801400145243678189623942584714326178875179541192033164357692926944657752161271287911176539185574385823442858595758522893062009365803470034731375634517432928365498471245794919283308762919502429600815447351429889627161202456109367994399998721132314708902469790356605645491949406590423426248280975129378042905196803226594468247064032860767858335554579309896960529683050693204715113111032394903127814712882297589998041026607517829519976840419854083402456592372701974363804919397841662881196026773702536109902760320973070475618061414058034107557783),
  (51, 52893091918407041559799367991618361692408498711616819629050914953018058095256941555887626444073003277902018486690159217595810128185931137233361782316852974455557494347047753325340684645428707333244210854681548826619585761074934432654167475179441039196660507819582283651608753934404471060490239621485368061537438817136429459917817549885581728750189156571951336059859732594545872118164505072940421612316657305615327966890109443206413742657096461871364834159629252365466879769025060540494562729746368392362026538963568949772313101815659170461977511219902900177182441676335798196977627172912611679498714939434875930419758421175051131690244267738877405099514050970224225329273911142090531615182306691506062156206345722933084416511663996530040042688181724838813673351386863),
  (52, 11744625729273591466566503099338405939991747739899972277248051804288312220925069803612505234278515730737309206214798665245174334229474429776808618734964555500022509461891759499837581962043166052804878483650597619581226024581765204790759058228901729262306412531498847126457246900155521309439735983276911844712250122481819445577217585729552625725227527325680060416126564538506781950713804669340730506805755253389033439409442023781174787916542100469381824580135880988994642418767600925709165322665124765372950573475624808430003927503664737942335172150211423127327181664138345373330187716078755687194135694078120358973169125816462812178323714023834126363509061844406820543580511368472957650060987223454320335954742884312516686477195444298385405442389309045),
  (53, 2607830782949894425192118053812545316303598383787033183280462438876991371407473398347340750586181482245533147935550005747011612761751079197767038610776683002301668183218105356154851850902664746785511428257103867797510463572493494475993288114717242371708100092003706196393954967417389054155821960658658605778854305109890024401812751120898696545662955685957303439493108700363912576516885154622178334753994218753978215190583678518835758597608601277348636869683415665104407453821107437484338898515479806585977597952708046084107633105947814484596725377236202206120411752659424464671638731136643494295992293724734838275444250095795076016413767206263665978217251837984702034600547353212097714816141654007332727840006128328662129200451783359302),
  (54, 579054755234456849346253092312638686319095943771335191177744140262078573211585976744835083583799077944434896664544124674837368182181264153774622046401007938688430126088363131774571361762821267905011398604853887067315328802031508508197641322677718624250285808602730828127399017683942099686986376479494107687872123585836274353213193886718366231877723596393580530966493670074704725345775765276410568156445385840084364751062545655911815696059023030118004991384334443702284940063876593667723586916882550638475207379707613593084350079101530673533254976331166327156910695709735734276029342959034106763478782604089714675558906299584369610049074038008071594225212675980623732087971795954464387617510329089407315089995464680566561),
  (55, 128575984430169259239664499365286104403652988873432981398357412686434600184489493013468406515883283473484138919171580606061325087736579374608136934915310491333762737427353127762681353868613380314725668268439113322928541450662837582650773304390903286617079225377463244774624652692702453661826233635403681228128478690209824474416512880885360877989496241462670289574151065681773650672110866822119295626887024172689779187708336638352203588193711106131078361443298049696894264989340269872003675817192097985759129388745387031283567679829560505091487121893178283151301933485690682379360859919607196070210737989286701033636125958132277847355141180959797839777540314180594592960102325485484970932843771577953428534),
  (56, 28549603659020332825186540589827436908452843698186071980499869133420989871904778997104175537593459301722770243625364974165663185029896467551229811281253995240657650064517565740602350246915414948413434370986372306291947181426893019974394565390451934678026614445026985377410247057330610013992443845710145378499058404699801007548915501148686932861525039655307139304928241735643789521367703540580090661536190856389519519481767243446496133992358323681573334405529912370438796621667536125281302451423539192303820426287361459397022368134126590017038047706997682491608535089693402180259712082207928021622927968841305265979842910569947060568325534262928779325194677523178497065237140956355574154833),
  (57, 6339285465088046029759869043850867825335526758169017715228020307435092435909446481911709152360056884351457514743730863101365945587865398613957294300377717680827490851013184138406295410560908273967584316241659483571833914940810174343856327891161740416149014180900764248758252394100438237245275470674403372515747893612294368495598357061626435546410073611245708084225425596694933175605574903048086781047815188241609918646939663077584170335361755580797570131704647204281468999401683152880102996438421746295298409705949948027905239463016932277890967374630547091348383219675068005967810457896923462791229131820977738463782448814196957871003971994501368259620635146370372870290475),
  (58, 1407604136748034114870052424788482842623838263645494058646009918529588055911159140579037942045421685882770179662748285390401800096776438417431114166253583925070125966163103266638264466953233873654425083024687665220699556581114521615791961351607766962979752621794434173915651611486288485887947658489740033442035822295077000180408949771777867094542611406009498732708458001381241729290200566769867861824140790998917401658384257856672891553353676936419121468635321477107915716912895507551799084026030877584203079033415753106103911697741756396741574339879302707443220275253524497316462169217506653016323127624517482017655737284710646011204999659581369180857987471),
  (59, 312598255409444067270409941991764675306268536104328686907176209739657023864597147308348780702314752951011702828039029540426792276611332811580749011095901368704260632617552072375805315031697596739774203130763560140530873234290550995049950374831328364914514051268202337044177431187173459320142792465894602489293737562273066425328694990445491239970277535625884322684722052935453222859513115539237090165369230553257420266752317850645896218379318744136307832103690233681118343642670272314685225161703728626359028195076414256114724930182128508022710574684503555532663589851617275689920464823019029565412512455429263464078272094097575228870701141276),
  (60, 69400264886660045466235456981605846529289268438806525569895366591334253115209343738651658690291685507421894118368599967342575970379003555534918992019549576136697346896124955397563799728093674407421407390863524299750300319065071211426434480535054189089830344348493122800891136271554217731502880736697405459731892417082225655001103441169998634911494024240881623631393916978261677708214774342141680659072149987251311215081030000785210586509730148211493366585870401017281448993076505673527056806429472675538438826465120336176422639176647576406258179673695488500076864488322758211342092269249969418194651418611679847881361927735134),
  (61, 15409949617301281035190231498591102559584367919381850749457152974635301718759914295990318392289760325688870205092252467668490640369843765368561644746654290948467600070990012091399563138542459164798841094343065573715401015510397218382934744377090898128929942986697836738786971937812034631489137249396289685351445335198939480850530080794966168566901902587457592508335565986672906056359862976624746446129572039706699188968923781147247918140458559607545579001234007591399274753836647991868070749243460086590804209313080681669711722529660027365746389469550828751852154617332854447600418399392167808324523077268203871),
  (62, 3421695805815482591655488596260893812156052379011437781233752877173574967191765063450915541610944013200815888569402301236729338995806777899819517451677059669590765011171967682294686667765715479259518386942765660038989750528176886315885223261146076140298655338770164273133326384484872861465260302066580471799500527912317640538279210141159089276033876624110542205917524369266802377123384829443903805538457980039697736139727658877391983502816290714310566372384269322708560793712154957934079402937272935179094470398973988589741998413318091689325486462117379614756709860574653325022479991604570846776),
  (63, 759769171605567921433037878840677054893122453416063541806080914960250447551330966855783710837737103443643535738237118804652820727818695978130508449970330659273381358380630680355755312696648678752727653956999337652387441928685489796720813584029958247773914568191562808878334887110760143398263331275544639073212808388021870007671995197866826110112449462147017884118297149303334282179835133279615944517657537643043744831776512927382924253981437575255593941929435397756579691610852979105443960485438459017106840089813874555842768626840311331820172846483517818450240047752302094830868),
  (64, 168702636648498698457910381807391674415894387357895809334115781976730884065439077946378217216736025758636608942585133966781786668413450101160657275500933259430357368536577021114381493860675182319210155719357138064123596940737875717953768233806931338412231669870177652561352803376877586843738498037159102748169321711017172398490041538636984142896082712024066965046388861458256997841568671000358176933803130773207935058906646166792211787893824438451564632302969003168782521723066772756930853804701076189257678951758087652295384519659240896405974085883637436369427675),
  (65, 37459511634541827841353219944815194439654934929901192754031441163998761631427774351282631422825010240313748756374696904098170375893045876614030592970118210930495490550580489098790496075682398810924482227903902298154982429424358965526752901027084950653911412234416603466152058611419869712631554507618458876643305062803150492989561729790114461297229569189455114269916132591842142624722117540452409674988750377078436362854213334253695268895811002806085330285711613854029781730655704617931110101825777898441475189026003225620913035206666798787000675137),
  (66, 8317682224424608817156363114048369936558329261643230138384874038417426874400306197468393302501399755149976094385966159681299028587363465059826826965715109988254647327957465508344361399992923181829248217885246411574479450934193633955485234586280860743498110508632426674279120260468139178295274264156687586408923861995640330999093655772440905071580117172954311424718584424302817332017889758944836075076513684013475645162172018985036981550751364455938385940022656944509504088830567698244896429916443746710910087176227343138773992384646),
  (67, 1846896522801345272104683786822207944905898906418938772595361203750532381209590587323744353715243293299674266815387646791669544388887406528142365630158380581415966618553469835507508740622136682105662881379692645854898830999233729334633200477872817031635533356648317807655951035937960965465614947092293572124855042767512040012242953455985665418107744520219545725395853090697175014108346228072232745560066281392342450533421590802981340642532025601628071198805852424799385475015358588166207657594398807678170242452269672),
  (68, 410093544670640226151511100432985447819337827290110162858452734562157036268166479857158903537150567098902231783827849814188290428954492217448345618038299484968405498138528111024949057039987189513287956263435039706739110216223993047149750275006550989266673218007213844318963786755747551388753146623631204875928812881114780945969955692044491023435248429962775467384104718180181252173522940887979573604149563381831833728847002252303835539442995583729406431490789063358321954349384051816954304945068150442),
  (69, 91059028972285019548120042833389283423051613449660157931978213012287627188204744749739513992590780252611529816705274387690719442675300732042271311270457923583511346512405827840266300691803264704931924007144474178074150470596791943864476376121485578743015400480844722458480458837279313339759801455223073202780957775766555479597953749391426465515523839427790918345140392260142536138299355593543896082493418549170285319958417318388719232147987337576387148418256330559487064568161612057563),
  (70, 20219140657176930609247060725497863162185880036848657536785557189460137442734976389120524552269384979507994364069225033561007363986892553103310192216274675536288405840296287895559012236991807248180108610023794319067587656856657218936459549746608910639195626473476229832917434476599013862354430535792096948106466765851467509846835779112699627916012130710651154952910083304609640195989452090743166888554757005005410281499242890033392523553318361172667234426477745476706728),
  (71, 4489570964188642500799233482938191470140373297350172734653897032422210991257541044927165789141191528660106163569094159759200592659040251051715815256033716555244175682977311915596935769977882961705965398768993325007017707918526649946365993124112228869473757399593904842737225907504483513668795004306301381591289471283131973213140522353706105485733046653398425171947008527682899985013227116232609575537764477323556670848148865005296924261886994089067028265),
  (72, 996880438014382886761290033593835937451259074184428730858437801448644552255853756195459503743401844817035522761328179605608888732850547375972017759804563754127160071419879319335029955337894965277456493435258518479383933340801547595273287957991774861620555967291044368511605675132561727719132231638905464809556807151451734005485329708172426145272901942077256953148240177077139423791215770117160707285281890920294981539491618144798966584679),
  (73, 221352333987014490743509852402960180496515840887147025029505645347388935584461293908921992505590649357501730134428565525347916762041661210442748385412691145515963103555410547068434406454045837709259611599302526181258672409801877646544065862141772565811608507695710383850593103568686472993276513789036509167295930953083407628741234062390702560529595238625630400877570929241580938216956899011973524518543905879609200724048276),
  (74, 49150183063485117229257452253696854971730822135558619470241971477324483339433310998750079448418584453013695302485729605462236498138422640620053874586616871205438554130219198923875916169118191171352947000357143545938105200837773248850989756244637723853794871232647199637834036582070338857494598191516577575422468906396842541688699100473731513642009544820562593889524859893601028321899978128729353176849068919),
  (75, 10913666757908392159718972305622122857287476268250790498221055334217873871476818369129461391697767892043432322239650469480798534440780482455904739069106801959828600191570966325632544532595365579572695010140372088014864768110334963560925069857431256998364566723504697675125981834942520432375773567784798088674947920796615100099942202077823048983497285864283202021733757841723381795190197948092),
  (76, 2423285726904729318772475847420663803325112692998924969098843953543136119527638636260313843572052374485832606958448125905592843851612613688707231103030095214673333554325752673674154636134409458463593487032671483859598142912660429799805208187504577975538466002537544080674893969683389744210903524370111115292185000404682342890350135619330698656251053393036097340239659027564131),
  (77, 538174169600293574120161089443317744912957943177388365863028275649026578025213344410252396712593514686618949975029290255313321018647925891530399338028402685805479393038672340690320855491044399972799716877973393820760134283465986884248926764024227401835006172361218459760782747901559091638689549935703064008842571537622302983476879609804276989177771326190911987),
  (78, 119477198547537890032523579762746330153163373610554275242051582924296219021957538336109288029191121157768094854489998375389022019326151428552257805731277722450393755388205008404528807656487018853134970078800880350199323697359928952357622882144227479594426675233799576642930515878616542435879839954061524678767503696864963578900515517569476575735),
  (79, 26516160860502895492703480975866628524080539316214674803175386182222632848131577842240304018450285369474786702068385332558059528942558674547891767402214105515901195986428289037925039661954826649653253675259426335660185989087281061369278303728302550333317167816157221425985598190853786338182445364178629805458996778463866711566676),
  (80, 5890670398862020403133872236458246447323585078398357334337507789922144185301422672100255423433035765852715826586385808477652169178460564817469741026401227405861742738084558695688131903913695319847627156376466220611469241856032155686581331992805201130486937079852749287805360882366892348670019694163610383782703924),
  (81, 1307994037125185008318983126063375867064383142800656790399345902167267214278863831824540994859115240951720789570139126074821086031270072261894799916684109013519212427801787057744220471221262802737133277517902301486685874989854134758662781353852703927703926908485596439829954433697391411379930910168),
  (82, 290433288473483539805318828787738435028507698507799953102537208533545813766119139345989532079369544280174271581544204407051534742354443993097873655123977401714967734640920915695939398328865484104416879523714709832819786930264321172281385412251344337019935358075611261360683298143156),
  (83, 64489048371487194570387803399346898013624581472652057890387035242221191016054577694231665304604164903500997355551189906531220774381294134017025250310393361432181357460076737211677103522942747586406721763123207782252217357074214942216969334282629324359942680421794316),
  (84, 14319449742438675588260536430081146301900030084612115206231934166630740179636239744670468611842589078962130525945040118041789891778621324858061509649123153985576084485821720494838858318582872043894029787949001817336211801074631781639694779674758861191),
  (85, 3179555855535896193231828903036205892014100322190403291456509881179413395303345607595453669502462551103498783317325824651714689567365178051259799631649011495801634383625506919333098550052175318914276932899400412631383960202535030646529),
  (86, 706003305492654832082960271745239771034860308103765055547088496983763886517200859920205389145446073112741699773404303240107637515492590765511899606463774662463137412366869249351822127393932693710847016040064003389921157),
  (87, 156764249245938573541980969311478489965414442300189326750882628085429284787839585450288405327309503135271684055498827634202088751777445756359541685855547150247783173158845943073297241506000488128460549020),
  (88, 34808618751285826984584901331332575045727066846395910816036672905831607342280187419920552823459835076392125873917823034114267907708755760695349952667889537754134949663169232527598382607995),
  (89, 7729075349779699920707850444063422045661852372660628842870199796659496074314838411095806061829677947443643238585849969171788861019027225657358853869961751968120034602269070),
  (90, 1716199224874389974179719758668006453910539037764119398902223954966040856019219770339861257965984970651753260776109019698192029030720859959284655490212845946),
  (91, 381070680570660645778282751841304779409127730862525542782487794033183657086687111573681501844937315421424159314775679080725013881754123940963),
  (92, 84614958404430532904303638593591482321763464871759133269262643536214542093101221255145248640021554662442528184444879915552094),
  (93, 18788877415889719322857166405352095346850261450562531480899752654300154294449351730069253143531644154817682223),
  (94, 4171948848662146781633080035577605387684349440258632185301783649037552987822618601817324162376),
  (95, 926394583977512974765768016230204032025077823891031443745675062316991710442914),
  (96, 205686078343987168224707165454095129954137093667853068156903297),
  (97, 45654008163647208795959119630260286483430786375),
  (98, 10141207368464505368883254393401),
  (99, 2252958310909926)], [
  (0, 113487350510320448668708327249824493191174310448905994415021680730788035919192688580710166796379354545582772381369229603741455598967044911290258772899440926165726164494423673502406566215931526979574331005239173996115066004056604743899639969958431757663503242118241143759448479396826710967062069772990809703156643673345894739184474338469661268014360734411162461229491963304480957136185851433512252710078330499206475775903821980835691886108037808850943987117739428978538730724870228214607660015944494850898962079013753138554329218791094858656400357945515622444611115198446762297773499140663201031452188398133006284906805346205635614810898194862626745867615726997683263531840365815840211816056472418174765848658170972294506485167542411893302622675171363579335649690663662175762456048770471638261253540821409905906305418998093688148685653213849866149714459687449121013171082899264963980453819154191190678344156197127097859596757715780111221186386443316197844450978876515074739460752022911643517347187599229688984013206171210933652068675791246526431233806807537093529991769116239516210935306269960668580885635903301836998079060658530343067386972256750812910094564387018740399269798721855219118605689952734969875639935106122779788823983650136612104020487665586035339880777679915857834621966030511589858395594730394879139762380310539786905094114351553370905129322413144335501400004848419093070808185846034100503434572325635865387377158708293171782610733977525271955525342917475667894907309291268056532375739886665013361750665235483539329090502136196234044322740647657976036),
  (0, 113487350510330981956841893344532898408884212613540824792401895297973182577533555690451961150065762243319774615653428838807792220534169089270323819393857208725735763408159104838024147921792146668009336648644421154520760540563899106001904689643441304097178965798757029730797223893531030587528116638605183053447870467585254332147809210823086529599121147378200714339486850439884211020175842665385486295430271570405485137786842002116711194325345818092496973525821944829818091889817436621745797613620731873130275422502749835032288333254246426355016156506045530114980835205911458772813930404137533721438138656716548030830830211154952973367669168721365865744060891013176137245867346596957853649613824654696357135355387522799422076344267239330265938737555020899093291727429786036950329986066604868780937987848199547822088692734890701947409525610645766479697630242427128740577891524424402650258827402241989117034473485513255801917320776914962989984097540534295535160422813407020601706690159226545816723463308529157097804861343561624731823269684302214756678852280158461984901090200916231600778377496553023845588154947965469104634116934366152923268170992647023802172766532462675880997362674644020874441896255702915616399062833860367192603992435191459549084666256225656403772222248813643332010085722373633355692408586423501648351815407400383378592295130438784970430252245270849123503389585853102370670101037861867846939427909016596054233506881780069035918973780611058183287911508505383147889765917308524483204420667654629772586774570228179121566453870881995968262461311193972736),
  (0, 113487350510328159640404191432789387392871882898402428650249729375476676219954347018327325789196186855927609248299384093202139687898432486623965813764533171288608558147091924054469119091517477581742827264809435311566868816185275698792409952696968383178518653608749169415295995977589929166031368163239111456249870259885132224901529874771782948518398257920140921246437838822432388217651002332728910165063747739488365698239829683454965653122449258508081012002371537467982516639050268464196387042129129267085796446336291001195046103421308021844350188237428853330108174081785415032837238271973579563554946322063930128681229920819970627575881472822572883341072683655415967912337154845535113419564239745606431600455122081217056431283603206498784145050330221242171317614808691780672606800070218963934153456154281795929415565245930212758190875687010530408225221039230707870246140755353142035416817864359141294653341755432936627211963526513628458504765830088248807697869921014366635424901266213298633143765361327713002800392248972571816331656362143538831669935258881844208035429129477611002679260846500795942245174660068110819498017700691160972069525691127611630044466707515976937157574532836304678306677007961345383853116748035784718866846165925522058378134141986435435293787261436219805762910837622077830371036679596741326541386792376999531175099953142641922757546237889565131521421831594857663832342595932012161249554519005107080947388294835834155288474152452434291331362457367809195090500152064604575861035005327164532833561960881597902404166053205773932701079197209090773),
  (0, 113487350500846335575405506705998382605961929590707235076336957288966387384971395389807395763079153874835975410621558858950056101646217216920797070457376186907466099569037473217626448925461012296167915358646743366570400496692162172488651982909895527262203076209725071898419032138352728429799027057640503085984619996063787987345734085162797462338427562146034541340812086212246275742881218501930333426817312652761242906759474415267570634260404303211651653684677188800314973826518247161476223970439702375105136650424764487651009050191725198826681210692018643257675814800321802198826970324029275120636522235140629391683649744724822901645169520568297400230884966536404695696304627439465370980533809409366146559895415270402858768420161822007867928482028201373776314874226658242947026480426601650983823040450196288956276931413828785701153720964213496887654683086454176383967165137378020931292504712229407229858368063609972280495415683012636148553164793389365454826879499885318552610385324168056954233857860437879257206952504085704828014738291235185474234147939212246546739045300499138140207210658053343604548620407945527622902372726306969767389402075365405389035237983847277795366985074380661332362222133724682973220811429185680483806093532345405961137530294114630921153373052173402678169140377816267373400391817143787530067823695172012859225837688131093292684792535381470542980080146305696600932254122798964907907561979655818257889171287171852985603126257205319007065129839758442370058303305522567019629828029302507458454079188277952111083012914392194726367332031500428678)]⟩

theorem ssfsLow5_ok : ssfsPlate.lowOk (37039559057 / 200000000) 58820166900000000 ⟨148720463433438400, 143454398810763600, 750312860339781900, 574330176000000, 1292242896000000, 587365483125254400, -7262243485450488711, 0, 0⟩ ssfsLow5 4 = true := by decide +kernel

def ssfsVec5 : List ℕ := [
  1216577582900756080516615198386908121603476160275438864295455284427858292774223970819037099340343656388924040040617690912530803459917491365466303702926523366909493293067850488298604924149755136839562592071603221016293457724461921690090601621432719862452889206072040556552317737375373575044011762194290162863470641518751997684036977749410356319498213757978796339317941251491891279443858827793099595022566533960918654816483818920977828939933961679622793587873361857489232396339513847583465192711855017813043841255431863021779593237833424595945659496279080741445258419724383672314332756802789857029521639862839239090947531831056349571700451512944028824089729147725063238191677014800687283367752615555310682528631871829902623196909717504331789246614230828568024955322057470535455183698064819314276368253973492817068959645034637550676621354299461444881245275191971930830058020200405317202364381374194011903669126641034338371453674918082550848897036056820123032108355468036668223143117941641565352607907987865141171418247357059625200596910747209721051407699892459639373339462716344991711760678782355143166382299025467844635404783726188772464643855681463131366761800062973878726766517493681659122475299489007454179488651327429175586442854067698432686608734911485108274888600705683383716645485095703841693538020092731270907427712067257154406450185525776160944067185676023312493339514829030088203834297664778744944967802950172697159925838677661970172847811632430097525573918197187366881721726998301125117849207523890783130007380055246798876898596386040634329908418801811277233767270051695705209788917137187936672885985193243045847210351566964656116525499617241050223804001076714459989206415959005684437391897526998944110378866872079613758567038336749726145330553017599994323159775096401293736762835383506751589379888757277863690966850239632880026992416782340406889915076663245,
  1216021168928464472196773189202229583711049252512901357923631049332411600403532618038170892806632812888871307889174644013359266101006099840319020297090756488657364033397267582075417789920433984218751142121868830593625556475263299781995141588401981788890713741022667329903062631400907338662851408049463718034802707233543940786903384254744322835343776544596389902455694563265057439777432977866376649192506401834943323823899112293160947568621578864410311874134096399762446649738391764405170433918553918544066848226804127136954960237639653470922348138877936202017563779983536523720923188632090856197118004007889881578861245584090548362372543187624121625370146792567717020593809336235327581563843751676764885108066974877497168858177703192896504193364892491853973918150912998488596839688131797255500713603301033260462807897528742681166693256108041222935461561587458444365285812289001365416730886644144582623796282841588895781333382064111956410783021254877622017098668481583598650169849520546747651766402378150016808891219691602875208015530197018586468966851854202470867817172833875683848881095497339563070384093326690982321387254408171184772485055869895097054615293112306709873859244388326559083536291106602582811634888744190242081949844758263671522760551016164224675102968636753258675440573036454296636100225129724160476413312827002496434846148412091264064942916888176370183344339875399028696009684873876944149293542526196590421067632196427762107733847213135664471490866355910494387654959357691468180550555014755795262208421752376054994317409849312085232531445671102873534411232445345801988884773294363040962797837934062378318946710501951441235619593360650975287979441521641739828077307545103953930301536972863067410997871746746810624795607388093008056081336425779265030657557629850096018155475786688429821006278720141424300464469360554515825791158660295750545966480977563,
  1215603561337504576267592158850086554258439563916034840258034535276893151222905954803902268641508755600425807298668779076503212479766028727670292499932710210458889070832918146980363966379384656978770400703381275297879861940028394601560075272804551466896923650455791924029377679082599666217102333615575995327718191048350655389236956164358889852545703461314563581563014859039925373674672279874034875488178200105192960421714740412899374215452909070401241928941496827618624042590542782273899289566687474324803703543184274915830383750004270868847057126930014827543276341703062202111282028143595609486932692462741703174467823843976146378186289087620162694286772070365496443601612567024956781366564042392503261065076147229163132895147079075839257530137359716876206112984338340928140034319865505017546600463197813552938124547338983845498410393747327863223154119759988621722843887077544378158017936366979216568717326980883706265532357108298703454862881909010632863610433580610112344941487945097330864062070633122010583843076606770608982905695584127092322408900167659536556090483580605649056500303109259553748745943266181178701087590991196647307497497388747360641065636403205124323394491292515335824564922234251903747213729132909635938408558283557879684375946078941736389424970261031246487769224837463108541305309133065454773680282857749806216401717396679707632519560936398993252896866175424777200793100287169189289919067976109328049781357897414809813422889347578904026145033098852617843726806112697536639226487597290115159025686232725578736867383603237589892787816584399860072380227596898560967736217846526988540994913104082681967011310008172805502811655974434793429957364368105886594327426961546300584622900513060770594265114870754707487333484732426637499710680211324874026195501298882592602986396628660332875466275001675562366397989293026058899007401218439391765925354365982,
  1221219588290434761526696408662788125279478094061361792341331064487887829674151674364207695474234246837615290037793201915061495051050505978308520504228655613158522066686062270364204485311781428767731761634111993823378290058918285278286310093391436530955250267391387023432221753139892732007826403070074619717842101774196692096727032111103570898989950782771898554787921048537376512032522046332576203742885741785691264390551613200276274026700126468269049897839518583781958034092350945386404816605086222545151256795251819334167949360599971617137899001159062316633735610794968109546849733778448297780418003311730952100285118452525750098529947225325555507577924614937895022715160284694410602032776227005755412586244940739869450178101214154826735679777448632162426328947531349920459276721039280379114613907936224572456505829338809638920811887253008540369701772671420194452086800769506393267765379710548299688784158106161131485500119185141205777482066537145816037006061632673309944697081151464378677125672036094604447388211216434622743056412584453993820882972475296669423038997535103134109992708908474119235096119101071776656479857817857349741018177251258613495189592389807616171018538080264001608749580030590412996215671476832904027605549143647541115537158794229027407174293737988031039850409940027992035756016017920307470149469791196822370547431299604458421840292429724499421486586018707182276508989466199616000535630027862978288428102292456172164456629875502112094734515797884197688062644014805529883277109789544829729461860194927966174319858077538317984994977218111040790783848028562755356702537463463419328714248294169823669798521646968499899817442152529295369275087339283606979403900564432521562676807779057255871176712352750844137100048634789529415177810068883301103774823790192793828959556795778674239442019409287882165339165903212286436626343132848449875965211873771,
  1216027669210206823078213682734449862577530738533122387254578839174968132666045361498879581634145860744832512534480999314595467334845383045436372386112882885910780661097121124611780340252837379511701569823588719947529840630824381797416388414615468647920426582137511687390455208346230361804161764161613825516992585326035028573930715347182454970213523138674175480486990846619201516440354769396544664817242221430369607367823813921273947693185359353787505194931429894261070270028067390787239565659856315039861419188923242009207819475254992758597855988246486116382299049677399548064796223029402359245115292076942436331775397323210760595849656751967246987088844207913323818998986509224011072205619724626400941298375034499543262866139897964070563705493352209029606221374796653114909881160884702018127650136025725355642074331867103948248668302930778158477179047123848987289500773820670541136529516915276476952943302839388253919084607376457379158786392123371104400256108326982402581512865680714978865170179681099613871930546327910256539534769585189229260476620762934583232970726496349852601522701275857349571538279707466590056382526284660649863845830098390828036586974499428978713445419516304903710915269709629405400903810106309882432913862512466488995289269256211109834212281917308954415273958386423814815779879500059784082133839842497057252236661961566444782712923861182468222350691048677319265446403057201717994147067223997155126111827083472860162335643506563882120701678478626730597283986565044795155151535222405109708738731670129191949740588962303426207636896573013235080268713433565724195667559957377225308682524396005401776697151738842462693578262120616927836064811997698439589685840319561276783976679806145323523750845723522703666965396409721782002569898408727055843962509200133133659089058435714052880586484361924264029092713607828187188115093721002107489412551456867]

theorem ssfsHigh5_ok : ssfsPlate.highOk (37039559059 / 200000000) 58820166900000000 ⟨148720463433438400, 143454398810763600, 750312860339781900, 574330176000000, 1292242896000000, 587365483125254400, -7262243485842623157, 0, 0⟩ 405 62 11292106335884063861335898344607723188427213044832021432662622274090374238710704277902220764727526937582276729150980 ssfsVec5 = true := by
  decide +kernel

theorem ssfs_brackets : ssfsPlate.Brackets 0 [((4024160109 / 200000000), (4024160111 / 200000000)), ((377110953 / 8000000), (9427773827 / 200000000)), ((18514792279 / 200000000), (18514792281 / 200000000)), ((31307327233 / 200000000), (6261465447 / 40000000)), ((37039559057 / 200000000), (37039559059 / 200000000))] :=
  .cons (IntPlate.low ssfsLow1_ok) (IntPlate.high ssfsHigh1_ok rfl) (.cons (IntPlate.low ssfsLow2_ok) (IntPlate.high ssfsHigh2_ok rfl) (.cons (IntPlate.low ssfsLow3_ok) (IntPlate.high ssfsHigh3_ok rfl) (.cons (IntPlate.low ssfsLow4_ok) (IntPlate.high ssfsHigh4_ok rfl) (.cons (IntPlate.low ssfsLow5_ok) (IntPlate.high ssfsHigh5_ok rfl) (.nil _ _)))))

end Composipy
