import Verif.Lemmas.DocPlates

/-!
Generated by tools/gen_cert.py; the certificates are checked here.
-/

set_option maxRecDepth 100000

namespace Composipy

def kasFZero : Cert := ⟨342, 301, 32, 2 ^ 270, 291263220072559826133430234645754367508161794947224140167236328125000000000000000000000000000, 0, [
  (0, 988453239721424200853205110527222778992257880201252382516296935174716838365063954793239145427126964917418909202789785947183712121693493401386104942167117782734427915818274359185342915742496070242990036405256150009016448996855503327792903187219570036018773233823429200653669485605363276142802481180862126531370210050913770801061814683801894985265273640016235636132525965379739661687634625762315451760059742275173018916019095260209526902492796752820354542179959737578327942413116507576601304327509767923235569833308885608991012173888578863354460975077955425791251311727910652407819796637799641277132456578646123252365392131439376335983434436601965047683996737396542389596886966039253560675279172978115090120664001989440846884310091662081690132290933707431955108128673943759082515246546217447052005407001047591333991844437732845152116301968856709714707254653221298255752702152323094024191387522962464676138453800321720542703134624168369786573799968080229641450974847),
  (1, 230142204026091890608241108834562538888365468057164080095546537818088391415091220939820433367771786851207471732699728092919968096933675324867038275619763364720723572144814384911522016800589875840346803051712026356024772160885739915024699454014089432549377259291575569811665798911210912313033473021551530466268353641711587738492948627984592454802541444081867960312526199356592181531627342515232845153673491970443404027265285900842753914765267808181316252374079138383877685629711631879018952914467789074565099626461173183105913538154600545372644838225205577281455923859385584875805783127596986311150514064746434117593465133632942095998693242512362962156508697607824392878787432205278801764674177432996689787256913621562225522815817433651808756463211157858679580622788723623570706937941208340528820954193937892962758382588864472492951229602078215324443184451908716349044609638360464956844753906809931108621602342504319488333529807727741068963689917949194294),
  (2, 53584157495315161209609617673457259984772062873738836519314567050451503930401806938420150747469576739521574166766304544387377821126411511764637724407893457617779162746112417641915850527721893936476391519352799830032692328301663490716530814304503014439106280750496212814856739461238242758678615331079701535931870723541730022638325725678492443357254714724111361501860944404404652661557156246908205829950396895977529703468383732448041884872426234227911627938540752208133945603901509547631427111220935759507471120761169146288416545586083275019171451847754645598987097839742477920613745410195303643873159127774553904574040877107196834537957196159105573728980908794832215384510929709938209650736867521062080824961346748428586529046645911301087291408890107968510180014911175618397799013848366113327005089295408480359829948873329857169310451640491456188998882798600288796037642729348346707464007364592643481177410170059987682900373166992734114343114853),
  (3, 12476033879284551648797843994912053454847089684041877398107798548986088468321088454318267932969512590095767324503116436392855323182049093713201052604218352962699523835003473246916162438625910770258957408217899461750102305855058015025344401203213030108973914932109465080978521020439975605969926186622982270999781490196876698787865630741811460665719284378949404112496633176786045697880246733992408455803617112333311164627872345142076230811054407206374049599797433462558143762190428280034022603653393027246567985224023718443170300449599329885050139763940545899393735025434256864849632770798466470369038397944240369110724212184495229441490718248443489807024725287004176249867488038339341722527067415695001952752675164149251449277220451960694354578076547434900755876875973272422924588064358991228996580141223737387871938810314135351975355629969589030336127928268666827075387057512296762479944316082217561159873789121371787886266612892517755),
  (4, 2904802998361306183225904590196919966220643763440166925570880656360203509293750034253641016075739774409627384623306905010914272438280539054703212483836885765823424755363602481530085773818639752049687646380136595515092440381426833343073819112780743769596776676389729855809947713380673808504344473272325068479352977638336992540365464692425788535205480730847782481577394804168968856772465336600413652091197928491353794147230765116884426868327696298147722282774457522455286041455820281136526456319988971545857059652381090184627716587564800924009867074390752769292808834015590791454330226189160676184168104625706675571632074620879282371801019058954254012027676325098609760745516889283242417187538543541104986623882446596204412564957906727068107965093633355167446840255173399061898838668236720945013595019078648530953366712932482741963435279999930657332846694959842114122985163446813766408788141638064651895645141718270443090654513),
  (5, 676327151796153323544632780877156175258719307240137580216601643795194921384972993809180570783964305745816646288919007641010515493871769647743369565307368935510382232108060848324113938449565263476615689317727600111414780929085526928089982623416172286867344909438334837511635318719938818482762312812806355878560100132212273902344858435081734446623707360319742579380375054704250967309918565815410961418225878964027807616449605002299174686198786499776392028195147508996136621789404836279718193644107357862429081607653114758400670755334988363055359470155486774822330332828868192441057891657958506162614720070318955145157325933319584417953218694338443324103957710825013851436099258050539562319381376855946573460670273873073586276817048429448714557209798838553532197244530889275690346869311810516680177691374326853324267899044011567325795138470867393827228870964060762103053114776299834751815973076946572243277614253872476),
  (6, 157469686073286767011655676382863003587983387345480169220036278431116352180245563809103465355924401838755385551815621471267779239889180671363922200470084542294587528358227770851020221237457651523085238718829955931616663217797299597433298505706752717231247785836070505322803584560737670045989172722400714615024649568882834609212553695561768125422230772748529580277478102292923947635553443295744005920883705598308660000691185169898993788021110414847706504040525340245022510765170106054980520135252394506178379341901294001925428659550953472759039022036803601206668646431737309970227873635841668185652040134632335429694814725974394608935520862294467429808793041031178902592009039621166339658970825959451192651396442833887736927960882660935038984988136931411489124464430283363999448537025521832873201718436534959320149299874246213032406950762500221259326654700284805497238110011715839044545862550967291755445918),
  (7, 36663768364416148283438681713972008691165453601973170698628825701567426365857376672584439012204390447296990442978130064734206357945031642765719955896512731512679608622153236263203486156989273504141075238313049993388509195716422888784040349001705813508305648769268418038916677367113919473716330882720815626677276931908641618027480713921079441304837999108370761451655556981666932728968896739125253148582695424185498049970023380012534365215345756038966395777671584643207779347378550740273921712570912568294749336135275781030135966580576606492284339128553780277641314056274899796609616430236847169215558275954049663171379007510118546995675272974618339141835141534428142310999468529719049596550059370659878894329743524301875574726713376785314749464462804545514831533126474444443194508721143760971643934753239255474988474641167107370649887392907663744285255804430948973245858500832949114402261580756002),
  (8, 8536448787063394739161869910073468622557226010126334312052658223911986305810831643777070337022745620295635993354518447242259596927331677350616072280451825706446452211158637950011409390016755439373914906362316103975407126293616110641518688993925650955249007970390007374555961547213122126114631742872487666708714545683153350378265770599497352099241222978655891830952734914996412752421781592798711068154003117280399381318184710337474240096713269791845023419432880590305947071772181398957288267643081680189420759906667664598536002458120287158416515014769239732164674929453258654456464582079373899727520371165887112999114568682608585418006975421390768683588494091951239957813682577509327443761055083075339811496341716957330364911107692053783162168788688334784693455981829629059696024440995837602146136877774922505405964086550571680794271480255135149937996477950132734469746601651195622756575),
  (9, 1987546865610264879456225296033888268879900223139285648253899585435163766567323273927222550153440241770734077634876232417826446920477710047414543172449764261591819164147283404602531667336997445526978677688705759117241745417382593881692432098538999202486362301369665044954968976605013507910685553884247240309769880418468581134980956697719486453393758968137179461995310828787370760091995259953263128575373431510930655441719467886393061247561504121484017232652482424171022425802246184271974059035834933657968156711876185617015085231259845688346940961906330587625535012935501959252058214329642029773829563942978020409169755185680104008926941030876521931679368544637013220871971384938579428097837562442106439677700398043073087911037866592983738329907928344482528934904077411084456582907885143584884577682778974995770660472226393112414004054493329706463147523359183569920525458185486),
  (10, 462761816012269090734474662699244979042536631026138935297238543963796404788113030122412031086497065092142223761155324154027376072592500142616811947070472934653940415975470888568677862020441667532310513241380862686140869142809555372617308073336956836862108274681881313434561941913565040545232024482508944419624721728840046826512775546340152261171899495678297118748377735909859361148438244111107620315874977035137916358780514073099530553922591585067932174850362008379206625302543263821882407098066520959960177787131757415069498378827229194016152240758656043958821929158071066282544466579180583870759568306431383270237069149686550373244537271015617923566116808184066327201646569067438085324453112557689815338939994587386210671948191476012845924432253846796680813091995752507623045163446804090749768838864362656048047987858688078861301338177847258978598239698491766558502),
  (11, 107745131480570205192657807539041382037693781551471663475324992082034331929896266693810939576126883060704503152788459359208907948944834094172532657876255208312985584134112784771406525285086051452045914074727534941896067267006625275271317938653974988698518898962503604924902772045127358414519583918738398798654023960428323323492141334884835467946692252456745393282821806126707084744339399996937301566828499342281347787584076990657742372924260524271472996930971310860431299263551655665234961489626996930478753223753578766973949264174796393169944218624480703266717851391724299731146704846483202575827436537188754439139057870354001632362867457880579166181442046014960198613955816215928002552619604669396582264603310218027398976555050340025933160925781808362889099785112228960239412168277083526383339032175272055361812038787986798196098982383870533025697396701991),
  (12, 25086368313191972019304010909758829986139615427579652395873561520603097027609186874192892475083210286848364200626606903786051075194225202820387822081394309250867363096706751913625403606585704593929907790088917813705296084984816907735382658116047966456627216879861337348097649413423463333053417484913579839899675911392160533809135978781812700430558121869514089376391332160380455838595377280595085208176980321086734994167795192719262862014494956036507871120368290007285441612027205099723789098517185651903876996851932579380408487478635348721563988366667720983480787107630585051793574790071163867931784873719752991704814396194704192524235882467587725701541854365017795366450703536497734284588664020941145297968072509759050637936791390991972774363728694604675279946875186183965226184998159823369882823102881720688219532621292127972106902231222334720264),
  (13, 5840875281298526567244904793277110435566775367497385571681326609245291219001912249762772693085300337255085865181546403045312286166992318541833158135738761455488242929965898374474002888096893344523829359116246414767880012510534587254604012266743920384120945092258354962826159180473411300464863303330163434124476255707480137657638634271410456958822468730973566271455802992074856497020315677066140853180315007326638826699088071145169107727217367567656918573918760826256327916518052020637550542798319869674092304415051691886275090217585162607215685270847564293591178759932586079023745736477424894639011523043364870116874584733878552332445679611002716076227884552909305690342050217963101849514759480876930983743844180406352038436190469952492499594839422739153168205876519785192917421559743389819607756594996496399146591311139773377308130819540),
  (14, 1359934751246712768274570068641824283536238448577324294410954837045932938112391217090835024855402376794974753908241727167114682068813666361810909150107475336521920498918252618628089057304173089685810114982595298152389007739381535736518914873419310987023856745161664430710058468504206114556841390051451379927917443147739427550146038241547173112356678752920955017082347299921060096710062510582181502823177510172240357460363904072896976404038565010021536218520468845091005489096540358421894370820911847842497108911559343100315108284563568873868495926206430242103111285132450242083306372202464627373276096342590143472226350469682676935283323950015947548555883272933120584607700391814055459459046399274770228815276661823353571770409573771404808604878474088131955722731686637124516711959469992338496123818537499803909331645240720672880),
  (15, 316634483460037216608079631962306863520349946007440866532492180598418446749539863572184700718010397813044198301677062913569314887005292429079047672009904714422747608953680055827854447370435364936899886229679756367669675438520856140302241517561327430192347789453730087426970356261405654846886496537237283756937236326685973338351128213467815218576388143217413457362527796048917830155711274263964760954758003260839105203833298152762740946514172715972375491018777785980520437168160824654478439305785286571769815932931658058749505494361921543486392245924862720700010511137431423493756999981928519213604398124616345860289167819125812599617381293854447666255005121833763301245181928939375841253141313481070714409373369242534134151695664641359089773720904422826046091592475025943399179862231727180351076249241655172979438126279),
  (16, 73722210587011002145726148030326437093398986851666324430259918002043489075624352221420197914822585371566051221843125045664914624533916923468710778283398764772049060313422245864722516241119095342443298136275204915476421694858199018124081547735568003308108958754159996152615723261005630448201321190511175374718670809335534772451764022341886353347540866401375610698603046138053254726275632685041101492914129825079990718185222020435200942194022190412709054128599011069752213974969439256318638278198127888799088120813534568835747337147921353057272963627203436102961400712870812152807537300181412927630025092300507809112190625127702774286042009887462303601294400800291178277184247322370699934964015491776365119882914675758422288545955424760442325509027538771073979395352113176031774790265285398123837028124924620470),
  (17, 17164789742559893556341097697225966745381938957531546342712807935207031917670823685224214083240969425897591566164774132348810002332068263429382531504006768756557502856809237474743862692527262340868659814883769702975736394258728022250365826239708811814922131307926028071114728986519768472807789498593466210812020769653733533912283373610555742249717206321976988273347505866096647159726273427966577244367150371380105655333180831741574184218810687695231725732147753641389136748537715406605448799600382689820249998524816630203365212353982322228493909669627148116775768530963508981401360405055773794678282722098518046652578321750550154807862180411076152235250831543285265989436243017557905883130529321516746851297171014714759762088667240518032986222039701702537929609162452898194723149531602436674662238037),
  (18, 3996489043943559181955898575770195281454813423923111134840363621527103688025573195243304149070980359310654822309681710868331138587572673202814192395658876923042699428463642828805340149562634141386640215032680356636582034234592696244447917267612370619299386466836097666787619000887444352919186814360661946891811855522388018181613500605001054296669831108762181427643519329395295856456801627754406669294617503511753203717970624481863436729935156340799040663880651628645462547391020654391636880122464205423549369494643644604705175333042362601828443610040117021292472177810812402741502448893480830373085330426874235207801926405122889548750301915927421941887142954284213219121164577281557265743896692395051711862533925459342196519788828751344531213362359516785169702124820451817424836443208604899),
  (19, 930505116457016948134614754414697010408810671401003174213777208125010060152405219907710363406450571331813657262754093592132241136294946354537781420084386347570153751518494176865867373897376037525627812145436265654066119863324029428057353307402779026725186609392077118807383580339943140959177821492930396201976541318555366755838855310576282045028598771608011198147088133123539354758523783611972744949079526020682677240226889825312381970281369716934976704125568107061209928007490525558561795113972469991597325172583219301547971712451730665666419139526043653473377116200925018325821333316054066040209234205645215663294331543379601755977426054491481167009584208747684066325102089412664073367488089901836751939720334570284035161861374710671410315926368310002689388699330115173866705420),
  (20, 216650105187906173089196615483308446223104994604597607211623622133631738869567685739069796029117557064586704890884946471110973771730192553842855016720571170460934227220363490485089685278333732282190539907998467249345527930027812120518030903163081739732340585764515474160989648741656714342343113732740840921638659508562499367594452414330160721444664236998188122701612859677209311226887059796364655584989265004464227274445987098560292799931693598502983932654126748423351493364269677038925782226819109457063002871446732403896078618003344125017536121025058130585368187863025233877675345344141942263584706027327865751967091788110152200672928668313929883887566198897746313796694903634912278639090188003275862831837172557758601920560327588236965836102914952856431232948010306260),
  (21, 50442783438578753985743181659679032448470824073207938860082910892933546302273796344890677376910475330563891886473853716419770794857803861108341956678910919106782932584258609098636006302743622167545962125993908208176849393646189039693686855762051823486653292962469969447932589971846135878549682379872733941683233601172105261961569174735378641971541623817334911488387355543825614887630099434317356379881150802050805844740892977134465003027487238133384274797076737634640515296708494560771540981009126980712964439001295260585490277040196801676109755963225766285378075180423699560688391778757251961510224335874982976366285353580252809663753787441847060998753566161912196913073474072552869576413990034654136550701778899465779950265641996633879214641955668611030160281),
  (22, 11744625735697046384621221027262283593525836261270553539526395241947273328498424111141515284988674179316473167034297649846358875478106518534091756837188945875219752216771852480861359812026755457638288411776048179757047769065524693507162587661773856609746183492818374523877303575129745499824565458081833538991220668231161605092130874920491744291861919643668204433294892889147172119458046796978407736777356103571734393845631151469462716786279831338507809078460388544458304530556037854939722081147828297574924668564764005008740461220445604034149777196729267606846286577116863141129277623571445197527468809056969758539078445100609222967644401436152123933550931687956147170591852312218892663777421621791472135870888234614222119484626913228896299293472543605),
  (23, 2734508769516145434375205316409069018793719881510025248752533281675370719399867605218085293888271362361608344836695503873368463357469653369414563485698063363139459913776221797070782587869734377050373799115430605541227331633103241563579670074808843575824560479451523750060541456362638971727473069467077390055922015623925627463527693161855392225985862247572724552835007668208409175397196139287792246056686217502638172561035801829348153002556034895034488610735684920641919217888284000125146690886396137432575115313906339475025379765433325994847261332592826250388923673180236851367980390300111898742847441206370904868352453195452605119557296063003397160285651527036351579924111609056041264791753070373510260739608714367665047569539366954874534262),
  (24, 636677436883595174731501684619362703243670957514556415554260202142263464489920904212185482934180498673023736299177516222318742274648894874708392537594321966902227120887539767909511595002779359242500224876084971600497917186725708088739698304517391039017718396953196206609844569201264291006949047899590197497960649343190162317717376435607530245547735067605805658690650117829903748132486939747067967043206848283711740586878807025918280767495771407755960748460409715527947424995372425863530239735616294033161944653743274183835693483336418365985991426601410975019494484610836080558926782427613170362129529856340350002310854583767724748735007008100812781968097665596523674674551745264569143574946570634835611794888972564269549521828064312),
  (25, 148238017429503420072491672965549561950301508771850824252297217525137463698610873942306610507466946419566808338085542484726463974138930177946666380761731873942126315293726457261832336662984303953708201850784237403538524449506240917541947752357784434924302249437476556424480995443012633129709644219742668210053967624714170190905541298989246000086358906570078924960779805952381173170687719783253249612568020911332785201227347032656121929270815726175843936987876197669662344770651511569136828377120496698662052787633616587272174940583325244521857297679635387303069931501864045439103371628727998480515404176592438687251099385407252212403590714758505953286163591129138828233056940204908656598974128692995561487838719243557462826),
  (26, 34514353012084825912604963631729959033034161844256060256691933033321393583577795406409215765881106820787957016864219327626392239271414041972408625474602885996486599392659602980556044881926920254181186168171520671699783869438395117768539989450430598790827731005259919079132609870986229071791666611037838321657378139140589688518599403535110643692626668389806309340046103066929980667927075950258653883340763159196076517522868430993848470637106799309885772656028436099473374813309504301410463636294498255755674811870949627789617764852676890498147529604103390291604572380332351632475606397197699984359110767559579965735361489927335306369427529499429536493220228845139231734921421103268977294482320996505662348826504410),
  (27, 8035999027100583983726092528488943128156047743804766856295041049206953864446327883379816954462115378302511995859495207580363433638451165047569346026192159856782900028084312328266921658517541423016503958071470417012410207986457999276123007165833981426159788622814211780003413993629214603405368190966043230532058096916199454538079470070348235743961269362642581725508378017379125061113765169237206185475870750179486820639555083229482623171982754103255551695077475369737624166179593414955644122992555361049993025011268835333656791796142166476908415097963601899048446179790806591577819944640182940316358212969687869783465784697522190078393434253931104778575059053146435705988432811375331454522947212104513291),
  (28, 1871026825881699096347692545617218857667419999792419107699543481973687620937434929278636573455788981705557553996214458621191660323750964609805807943034954335722816183251401485937396450554379593351973210943739492681904278692430350760957926317545115348454515594712973521091838831461317512068284719941682018488482227989448566700143868954576414792848901829770270609444207873153023898945738927817420014049284333900663098134110689337010262385156813107171423646989892373841017945526650773334833538487998860018393066491946073865230421538693617919795959573684519241851343136470208285512346060349396606949494202822367178872990216980806987221702889145924780010186858534883211724845984054728376533764628544),
  (29, 435632380163692658848057628054455588028631173025914260116299493697864846544674348383824474517206889974316012579066320001425142475345862240019675330965536259050205392588721934225735359488609152229496559813558005886595761098999146083592885713452732970112589093556854296729862417900310250015064325487889430668671437348430243425089340244042189190343834376314371518459606025656978179805110265001177363051849486118000329123809575191698508160009434729319799146931379449102874943156098349278709633535730580720150393377381964871754432478412883727056293537620769540456242393082794063766623985093744558345316349180846076769684535173800998180947109767600894028946719203321497584630875573484620969),
  (30, 101428567469979789771153039311630555435230762936620567952352458075123104859300504527945181940963233349452729471741784364316878485341058634226134822463043094391516734051686230633811876058720320516614373729927001028926056134281481170000714648853226790696519681615022556466369216344416516066371441011523913410815810233256567852189252494682203837639547778158276346951424754909539311949040668831880515058906274088683563374000659054587084663042544219518255685576371041143575135708640896105366753377321019907962585955252207470964224286509165894684457874694055907895400874900793020666125406100650573920858079112058257782538488384958476408122690517322551793869128783104579599442205747),
  (31, 23615678648925337421510610569182447026304612619946843002073573431727268001833116758602015194707371608692391186892470429725218211612910645600905367746726398913077249669396837855179765275381580115438991629035910831048632071884693850297647213761980363795654774088184946711258499835734143777715630109025180714939729322572422979123265944548768214314481788628067423831390745579832201446488516870227188025775897645604276214166552852305760066534459768331850088791400180200316141456771003393699567526318167326756625483982350239913623576627207922770778814572241189502720704806789560315560583165345802539233984430452015048858916470365018717238473037386842736162338912563033276),
  (32, 5498453660152232605384339245311554294616126599709233968070143235783853568563497801917142978568415066388526742088717974192746498531873953901442086265125870451581955344741427771556136495289760668631408277208896081673128547120069584412883784100874411825941590147136002634338915006428212342525661659688047822007847394603090829599707007340139496799402128519083252312464136104938937689749856846745747772906581577186788057329450866421398861952356447837141188915734360794169426473290926035944278516726213701658703250850229137566802018674419719946682130660829272607406642548190520404563590261335747928505326648581296529784880332269345618144507808631468685184925317),
  (33, 1280208504794219649719153355181113419732108386165749739871859372543136954438755708261659131052069148604880725519898807209158897989400186087340602247306581226080179993235838546314308535142280317058648978641465325298050545882449854261447625258209745359127787947092252398218189450359312908072469086329189099245175126990683544812097855918556400897588842164675323305161297411467385643133080207708611375582032340165889053336048503477399882257332586668736684759251842889556738447192823787204847841626085736668291820591282369077294530652218093595281887530354471024902134896136205554491655366737658963211716570142272367224851412596803249160995661222266861),
  (34, 298071770182396203679766821484340685357364915815589423261550109028615279691004126393622516433724469646085222605592293480680998877948193365554465504201730067394715732251256365867869121754141598255058978367938037332624789765675052595661865840249178815842766264667347671331672639886794565633116006373825289658232272898766562021383024503086518404760540014826897646459220971066570905025399806845501444431865973798214832935263700795936627837329485096980678849000759579212610436780570531560366011469508728156981660674146211711629850819192147848056520875393890495326132347496583716452067784691625647208122688271826542129478006980005700715022560),
  (35, 69400242106615613140111514712763178478312891865053545511688596808494832294761232657735821891977561089695715952104025865132221690832682271849938087212324623808897038048891435812196955493218637596596725836381790538463925422559271705258149959971402814461631966702679930546271326426835947705825271785642166931258759201539923815604024664252216262861755724098719534798522172957244425069611275508220227527162278283965757781884389812336638515553010841567824499141731306953190141458971615809218767887000574588273888594611262792608036357561700823922882696778730177016200903313361491074653014506860339790501087791359933295317934135965101),
  (36, 16158503039417698313508069774313638563806398740283573398294066267203267732346717421369585649105152368940346863145014705400034247625778026843894759009667817458719256811051498123490474068843442387086508291862390595130605023018855469394333900134985266473365108139045596757107584423521479219447477292042719973175371597948002052315896247029991677880341077866427481801641598657981441897436034179299584425537068928592972090621111143421288108634691810413602412647622058296692089046989400783224846943541865660778997155027058149775719454915578565056437828718684878390867680413384590866622690977692385800873001925570218118574498),
  (37, 3762194663150631429978662583584347405425831382228893553440940162912771974770984943343695637095987882684065695652974468050532566296350682816443675898403818127401000077615375193648616333688479472670356810992208913697545619602174574541925551773157269824175936721516234719187553822551286295469850873008105746169671343383283303650897783355929332606490323866471785609497984987513081959171396317075562470187331467922511527444561874110930016723683780225112585580209328841206705277203627975741544876754796712483446596790827126625078075601702942819169237564318963603595672100285711370558924568601046164504285528539234),
  (38, 875954204972514749965319080181500736024657120515800442882101089440465898898193832334060137415301958723940350034501046885394623106427184030516928969510788593301782402586046418558949682323373731381808596428541683493841013576623601424013118472899316055139469294998139795681763306572228745760787281165079415737704414317859167853121228578755111881530789769451413038980656679014884060332851823591795960360318078786109305172719147450834562413893018383056807612374301202985017222149906935657599888408605918043342946387041839767723326094846836538531225163935591188614254582123781833240554105637259559167594),
  (39, 203948981355064257505656937179505065089244656384876101017487489022423024032775739285643244491727547422968863983289582395319506317942213274193212615677804824267929047948225964456552099977474131477495841432354522515010944452414164056281964463738245808119079992799734823639374139783966811464952201097707379688844655937909952107710905298665196292810861085314977489227964614628392662394547093348146951979039851613651687680252775096974611835082480970851437215498279176533445038624908707479946663521322676106749096781107612914561719857699062473190512501024990788847599740874037375413871201423531),
  (40, 47485572601450667135803247145261863500169631183351413583729297160735126592399491762193675267446680791435964401645954324705411288408146536488368319272483890938556065770855084640866536304550308227797405141867598517654336456747407540908885231002756034774940340248819655157326416420215440368135004303752342041876310696155535748672406037174841075282986538486325489011930119161823266817571274793945445864183173169457981064319638829264060353421384882083805625146256480824846196961433183608115937121675382294927685472943193122984523487503293277882884701863205044917650778498603681412390),
  (41, 11056096433068315297319378504823395866008855212328818995442543449051474824640781563286128283349489977451964375014871900134117176851291800031524225900062334476633944029654414302075565361980654618963654306151511131229144514800063947150512708155088846818358352330835546663111200407396102218328096846794767650443770102980314192494521328224485835539450141434452858526502701719036201840061588185691005718829662750207877239061068369429549335839806901694104963586830557916807223211354633215473800871693514687709987323835573384515097748549915181781640442530163255218148567981180),
  (42, 2574198048810547985443700688151502019262140433380570960101332387200434418544355212544586575438615395094259729379525384896927787189206993214675277913935094717106303207031656984059782209245398064421051671016077122602992023772954518847829594811794936211700934918562878353698637013531434655662072207940610786362311877220462672432935546134266535513047227107225516623715395772736291011201704077644849742715547693433161412099748407737685847248486865077842246911251728683778835504532362496296343523388835594664695884681026988380231666821165494708494538538713722690144),
  (43, 599352188597095195540157306974637792273922924273780304962148048728805598463945838749545294660752498333868507617042722389317999405136097505380231401402292474434845112995899807482218317927275826072523346639131625338334325852237820143286309019822230903853243862386688986717213129336419037146541632706395739056472368828093363267786282718165685923855530151458548223486278424845121900772115024469114308567899429688545025346657630855742309051566497472976354542929632252766583327037703192795218243863022272712551649355059757664083440714644115504832776357999),
  (44, 139547555846417135451956956408600740198493684705761332288884569129162840187536980665648657516751554406683078877870627303914632509727053694748373562801595206486565310957767797894914480003605496245285350704582999383876727203173569182519073669417905508589720710852331090211688271501511480678183366965116461000253695360573680865534888355376145249268934747181782603511171353855807317320116356231340466360380013187131837465051784744515712485530994991279404495563610464826301557607294400298586512330829207086293190820160007013290506734690596528611),
  (45, 32490947248045619449568203745549717032931205980889809385148009548234483270798106832813624645758316481179343275230058306808265044756013363313801895144126295338027352607232916691805356104205861761628275100658355680019958378160612005595858236861097912258729227720308005985545568926602550027065533378852516738431151780217064964467526502557651502288149975703019694604150900864810621555655593635793993847649531160816933123176914743521487456084127060316620071175817197173176787351488352303493938383368889995720743246594934221527862689131),
  (46, 7564888160686385689668404810491417775147409639528442496701145905124601738247579623203171567469443306601453403763020948229419310758880085464194658519544498985358256910560452045674895928429888003857184138159385000786521459678447810600297131166823686847423823292406373253732914334032274591232603342778807090542379691868101081939800282069773269777853780308939900322515450078809267711350585448638495664950496463251459411657281081846230555754844504922075537690588795740514717475566248795034557174652952881930871469051418313371),
  (47, 1761337779622149115816784280001050274620626503491877228184869956486998530628061765619360741104335362697358570006448064989909137801673218742059202798374945951491401557481984193835491779269841636096637528599839983368854561171126057731567370760345590777171411118136887359270608408285570183854922612734107104708197528180213581178914647704446299178166992672645403024703104919211410495503950177578010051600749341386927462403594453159077720690502715273300832262252227613582768694837986545686406492842089272440629608211),
  (48, 410093408921302556017596339807158865644742386297294224655458227844675660745255128857530826028514505060705954681953945685235334867442361479954904589972262106619181184691340800698619582252632113046700930705943858596672952101285418213531327409546006987103151939988587190116962027089133182138349050629103126052829250599790811155005102590752666530097588337448029778952113312801070308665349545691976695831492291245185833015264386481798069081360643452316312120604203272094431698059433651868497340700998784736),
  (49, 95482312357356435623391610525352616246031221537220809761308652312652128922113945907338249038093375294961639657337548790449630719191053872299768266974820754444876153512324388151997301088202968361863324112545344730991520850036802842673590521216177950620257446997991755865540546486196029814609717937429873981796389451723880449406678398807514091692404479282878032870097346793047239009088964796389428723928105943916885694681087044780896834564217946920625169327760075043299955742479343514758267127),
  (50, 22231208243723128834597675717750707698527542300806569345600123590010248341958775776986328924580082063330934983698511138097807092215291357115065679673007783063812226987534826639028962821948596529678248120275339132192529051212478007692949295138996106590454280717340590518313352060418278583450073237024206803879919178060735657354602716277978027469243202223097876810342237011360325009596946798277090616377301543821223849817168778141283764110817525806423544384021983206796777434323083603),
  (51, 5176106524589268684992025540617925044737649685891012043133406804411264216733248184614856801118269924991019695567832180685455266028427684798731376235494683424950553463153310780736825924038248892255163754110147226807868644151206942777206417843363002692606606338989177234064391629897962769177010351570478358992843212643428694697617473796375204935350855806257572126396795299711809664003969639283291269557150230731803023168218787964043685391852519220050666135098759081431388415),
  (52, 1205156213741113591238862262251303774476435427994237291424862762077540210534457354236716488857157444590949892545099005967871473465053700706591328845170613501226726381764140007550281770816723296805257378867433644900170760131800308212549413809199386847667014480025499549727833618756764784451186400374132971732379249097422402369367609209934988039517607870273519803760245529428800349221856141520913529573185218795067417662839706220229978793411092024068700854531977589),
  (53, 280597296948803959237146718020388804021392815745025242544911516035550632076157523468078903165795450726129455393789938951132148382454652253866820119018069463203934582289137740115204610458445431715738113042552761472406001962243661551436288210640731954095919401278169326578338517851740426320237920171633715208207167141849454006871345883742716632277156490071653721434040789294580724308242214781887958481353180300299316256842501256704952421140361216313499235),
  (54, 65331649256126014338141940073200688702378611952305132377561128900778303446176582591827349125703258033517910616342326365675053721927720150005971493572515689541704196536093293455605750881731686911678878603609358193998404325091195386610915437775822239354815753743977527423201741277805836070894330867954664428038494596219702820647663765743992136946208478457273073504697871233348149218286724975079245214911364267911665458052734626909010328431815426),
  (55, 15211209947272672862313208187278520479420811485370405201012311083688901066338816525284963244553761255166587089881908755288918435813982254028057602311926383948050689899020262906615468089787060191338360105359388197993402370142088549842586387866943269826317331688671730612902773490215950655437246940051772749019361928501335939634225320986293595280592716479699080880824097961583925683418146656713615486361669129402522556609829418495254922),
  (56, 3541635802777640722299275963399218355644940887459818040802749202497246290188203551939854813605396704683637451188300048049912986840589375296663664509096118242290691888021800783176388980937320402714967743947352482962941913751198247942087749152745255364218198293355257690508902884542783298457613639036044846761648877387357854614300217888964614102629115564075080171936884691596173254410326622546320478970592744518863058915067513),
  (57, 824601343548307363479233330073039956845534063670514874295088312047494878409390074718052632110004141519801984662621669382014366491321650677504844324441888763961131241343446421679136710483386124498165843000557802194831718126433271099648998983554546962763779019993002173977824655454630821258477009907264064508559999044729690831638055704773547600018427928422511096035450938795944119099057911896624633638104878626948298),
  (58, 191992461576201851940318060373889225954516871205109000330975506342537011694692571997169516330791461061128779791673279886778853073304310254680138186905383005136007997253642501460287622289945239772822965929925869000681378560742647558670768005372326702381006308343558132880808137981290341300907227651674245736098174934760660578883477624046897306743558052567224159842320686080950754344765030610328074657118541),
  (59, 44705604007188357944325395789182136096342259472399352086736409678071957531499899198571279762258312517011329337996041331705901985945197775165875211462793960895858058051522859016239323453051435855540923816530115544933306504989872654151035224246736030147506572666439870302604180386773889941152101652399191637648105469177686922753497772274108206881894050818912581451669725545213729194325690354397084),
  (60, 10407935536375174459087074229434917463202377950181519530949429491001695022625135181330646848996635513907349775846178769062264465562038409442328377975563922067552516332787227125854143639971712922957631520947783755143817229773705746423223305672041807033769291333722102398656913989388642291159830572800728514157238820975628335320890538818269969771990013200030783735913497543784371977166593),
  (61, 2423284091236560312807506228186238966125373860319941303377624020300438844671015710070687347364744307946146704202928033246011087846450683672346246761853142025811897229574212731477520281989899830103588391230988444982806958519445209068185640674926490754775170006616608676146462456733447166032323779623674038954973585441745953907279607175541057430004179875177202787522733757469980),
  (62, 564214871436869418841514141057423019573612404766770117794139038363697232105842642050793715671184338993420971341646388469515659374811017298741491183192556480074967872105486117222513420480035192069303632333200421611325123914337432791465963744407368704206699342857591550850979893367598552471697781635740801889704374722718390085448926942898711795550829335848521090744145),
  (63, 131366606921045484120821462503772606152859485815554032736905851171729230972928129567883563658214118952306466909888204257644110924989233026669964093427120920910070842240257083815233253451143533721292971245478661971521731629734143558684956548041605196284448041000970306438459997610305653777162393911768523231867251514302099330538142064018039713952962991090138),
  (64, 30586143201195522254477357873977209175323040741368569426726229033146257920012387927061527760516173997456209051479825766700554168502009965573620600247630867344234776574042302987649973691620151382716775392666324267017662863682115883280046912706064666931993946081494427843513199465402751778204628838670908074121954657505668902770615284143611086945374),
  (65, 7121397128797223163393719316544378486424619664242530547816053234647407433322844390122266785370807578979741012964669951745320686970732221427380864068233449966475515768359637326812546444127325238421643016491918559624906749678436344379369483494720495284060892799828976683790185291794023964345692035600857302514584256007656600810522748233144),
  (66, 1658077765459611741071351249789452003430762322215630724877146926013510879831599877328863852316942110553586956273409805330566783179572210978247702033101963490853862797881153276382449813135747252706230187798964002669456316210177645472534391989494324079355217056535231666736264802968140194568520121168439610162027082463923943978373),
  (67, 386051682246765138262842710488535551067536370168593810673416593998964555225835641687275097243938207074946310760000528939441312123649237531165232160273799895745070147733828886688907555309567581165907345948270419621121568884607474182601297935214825015055823288397373260269346230126658301631614086883047217955647146786414),
  (68, 89887028104674163604889820633530239157130511068021158570688268974802700011494954952540678133590739992483322247158625124960288175666475456581582842652216024280420902236902288860476588105882016058041149836116624123077104922129487385452612074666836879377944577862463844591177152381472530165727538960543848962633),
  (69, 20927899653093067453992850258060526449605118209192984531302066249026071073749768332653661644767290071738852435683909449896161117886577769335624194796102563238141377252051093064380539122879215875725207346352351517523355386815361874326411749495238919585870424230633712814623858397074115841157130261693),
  (70, 4872644089373478424589251175160829359198197737147584890127943762622222902959231970440757667968208943315234924023032661010107149352446935290397310489590030867331277259453260889638148049739628854173096404641455229785498796283533872179761680337519460948908162795256810423529932204667271037933),
  (71, 1134508429029090390388033483298239779810413217962338806236417236746695384437533953037870063414627662592783132003644995372779244507263686716522922693248658855963066563057795237835770625578509263537290625659141430496280812111158972839861717630994963930309528129757263803457270037607),
  (72, 264147689006196127429988139346369217596081478363077787824685554058008112462756201699358933859906728506434479980463743804782071388005701260161955498082419763329118577779367508767378437378286572594575071981181462849815729892293131263450220550442848196741397187727188588487),
  (73, 61501530421223793632942084767113101106677804990109283446466519494389572897711896110725535168166601466823609737546165451196122477190913055713094752586341918305462271843989330962135219507696091767511411256455500435603162581298074487741678251679145420675894412542),
  (74, 14319470332951265655361842507705165183304508670062497837535138900502840359320074710195527563158455337355502794894874439393991543537050425411587510514551418342531400760689150788390290684278091400602691636323775299945420734299833821311239164316867512326),
  (75, 3334028954021996303052649219807393590371610070894873175421023950845677965271225924746156685708941851945524915960591609615097637289126486288786782760918404451271581613845426245503362373957161628072166427763190320670482678400936746167093144375),
  (76, 776258906440812312231846880706436300218894532383759046540863528670889314697864886089953017844084739661134737439766064792423752487802296172753061158622986650419960262502358073634617679906857713565483584690189250379288893811594864762),
  (77, 180801595006725027755425395866770038295658592791671476976695642646409041771674441068075433978617697225321558743256400030236475688646945712071847241523264020781637472291306402143442806284543809816849006649136703703303799711),
  (78, 42080636485724399742849976370702594461813803263622117906893383246861299218919077534292709535773641165424410702486726753958792751962820843124994876870935405444875744643659101054457728852077927935683960186410949359),
  (79, 9793234509521056497494544494777772921020631390158238960883308421515066927620696832583638969365595687011612183460368149144446210153321832827058971706273250463434596717192733334264127892473598135995630624),
  (80, 2281221072056392530060213114486927529236386701626224933551802397530196784377456194503730204623010124296317529773976560472795321303628299286589875380931825726398653381773303587574801901115565320),
  (81, 531137642967914538933810963063027827652193172409376856399002441114359780020442246045262993486923829936931762044345573665090919807558661875576408782354507621505044315733513091176655231),
  (82, 123665131719615547793584362291517074644750030345894974843253962649107808757314154393090163828245320748932921113174621390321110899460503411476911851118660439835737350866374334),
  (83, 28793055143170194267964945285456851084959555019891735743959394485502832559202529837495045598333141323719869378119681183623673572940364922425154044866543577751437537),
  (84, 6703895934273154118237756960859116603351767921991936807243474174749915512074167250780358077763389090778994167326061105050640379337675688589916898712652472),
  (85, 1560874287150852327638692572173106649924043054135720370811840724330223520544693003196752382965249792881304082031516497189495443925830392074036975),
  (86, 363431847538327740235552772627626702679270083246696977205896018237104318176822244130701813551430494092340541514950932071707671918497975),
  (87, 84614895539580814809486248078869249937545069490573384395763451673727078490287495393277558074469964045801314820508870477329275),
  (88, 19699521695332194674326860448972110922962711744216622207448873067668353415528331142351278939837230566238253400090223),
  (89, 4586999067861009514919412258415584428333826908602536464045541153901846587020895280419773049492323331225057),
  (90, 1067994456160740799502980666744405328747871484050698994715250631932433586595336593365745833269503),
  (91, 248660118986818376266269805878002350765940876277730871639943136997360613553937652572066),
  (92, 57895792071357817241944418638416441076781512376019907308909549679585350619742),
  (93, 13480150809211189552844898598226142343492520747241880171834062957064),
  (94, 3138514722565836373316568643272285415481491811665375263453),
  (95, 730910105692100272786382528080798001214774677010),
  (96, 170134354270114635755282001624448962149),
  (97, 39578579861750288614980180702),
  (98, 9223840108834812057),
  (99, 2148718369)], [
  ]⟩

theorem kasFZero_ok : kasFPlate.lowOk 0 417406097412109375 ⟨10933812673538433714, 6219777857550599286, 8527574807797983714, 1804678399305337500, 1804678399305337500, 25817668806935760408, 0, 0, 0⟩ kasFZero 0 = true := by decide +kernel

def kasFLow1 : Cert := ⟨345, 304, 31, 2 ^ 274, 3072580573808796270164011793549300184903833966280714497386361472308637000000000000000000000000, 0, [
  (0, 779752117636834665531987780147508964794983276694710536532561335791043065935505678935954987815084582203923029114900770241526858189353015777915208827296433264375761416790734207377185112518427996815301254496203656391201509847742410783964877837076124037009565215351589500991367653652319665053988414101148440394108744587770028145315735710620797986562084255687350717269972130373165821317705803539058903831870314938623962649886952907279883152711673353488678084542305220757407538876443290017883439649080433276390635343536065561449959414613341478367126625496822367330149189538007013733328481656291146369771406655253887465189879578345758931102300873857630514275194796499507455965595246397558353366317491059367236409497698809607426807318544543231433679465231082281320324791739494469408372064016293751098423782441758308017458364974562264977131988773242407114641060757663201709860501281595773174934755238372055303140267534291248345485163005111322),
  (1, 363100374879704166917124660754347669330883434365834359327592577687950369871922619145342608827671307234057704505930082053657089448232676730451736984446846537466981176655150115199938934537781400985690417930578652951494562368720029845817423349747492017694546475704568205862942921767160140468733578036142718230424795573470195823030423238231240765453355505916918961922625140460750936212812458881670098673491885391354543459549058654405266844214403351033633469522434130448503103415872790557704056271357072688066166451182344761679338636017527068454646798634689533934812048015984569338144438341821051860672679011312662876260588188310909088870889285525311702092489794761300364962790051763416830244659554135155326625194479701452922897139196694865078798890180242024807492911560900276641367345251285162636315108692303238940548098162213320774527488196784070103485060113493488013511192752481195917558386866548113726391436485592424176563983),
  (2, 169081787988405752422811771162947485843153407036249693170000136684603230036759106044351406780849819646243799713407681348573923785347806629935157012402474199173497584022185818850965674285675120067638539676823957334968523294068886826661146874421970927014270087566491312283530329245682871187447373772106467853498084272011274389471124502937887220388909571765418612362176710954285662720358212889018514507213554061648688958747805402392821844006563883557223886106579039311414490041666007765255182851887398714554348815061870843949777098719944815440581009535181105092771906964218916965803430423106264859736359731886122581061344171710908444549741602399356960159632662528305647379809260572124153839023230705439509303179344609645083555303773229016458633269471147238965775112295713405950167962020101408059659999571735737562668993179658258631789127757806746705413365098971842829505605217969069148540907937784489708732303937543472),
  (3, 78734843054975267696572361124189331123211144952219768040813569298294945637117655037134609548770738600866775826275200279696809027971609788916612515413423161568817488859494132386038859507849030228163366986822317044701670899087976117926252481724122039514719549364639125896399062706941213080402172064458237892714368306105618546470592032623424763041040660704215342347592446466109558344054134976593085800862663454212569149948729031753811172445019305027400220829652494848157882805619483159408403420106426032134664451764777073859262827806671540723072788800932781048293549690974324130059764535563861960308897893134599162277625410251390568587216334322761390924501974060965845861827248215663892903556533563703469276789477022654797343960873363366131919435053993447332291906083383785761991010740004062693351772556727164556488007337213352921941969554287385740002987100999359211527466179004324712176166009605012621367750),
  (4, 36663768372952597074477170186205455625062410231782015432051182397778586315511565207100757187591278274015884765551984440394122632207167236561240868369780090436720051271605367020721947545115384379477876698049864286883580917067814673262765855399948563200756697619631479446030716740964545440116046026562451335002839707818635993856281057290464994982369551763038776045475363017110879693205531209983437229349586860298402065589663848011550631762869211983285029247451748012266202060029829677190718521587590308080582058350931189803697664544690261614764259209617540844947132443874362670996913838439728076094334856284333895035737767558580307828384788777472163683774822440190473187244466483906057546106564716562124106295344870585474410523459415425805451440896841624939528550948977036792701632906761607097942882798181889362864858481059044117419009566128126419608572294368550068959880532709823924138916438288042),
  (5, 17072897578101883211395316843970425252366070743548691008263818173566174840327149819163958163741639942869490369014434721504395190722852589823883431204492268355898582968677099338137520265353556899110729199857387825326798910772341617039761438686376699805612069377504046748406587513612837269956267451198050442618708921511953693747651324277028904753909237572475697866396681879233047223279965673565602503626452256380938906057049391166156106252928532613854255438812169445981118546386857386880572695756998085948109178965837008955749732196792695269966507376402654021804613514869637604544289323706304058043400428241152185135060725858025978774519838637357798265993900057532337902046330274260128598320836538275665092927547521716922512839616837826578063033169930008841094034851261173813525440623755639718005341750003614421695553813706368316528216088992611035736581688336790731146996910160067648160498),
  (6, 7950187464292106782735938599319395261055822830437073022250001399575814064744464037550593802585098865846865982289628461703842128963606706738417703287905207069543461766409268294525109355036894278186712972753396176419592886591489248461910262092192051841696756602033994509096530970937030981274446216969774310765186753828056945347996113950865764521951432140765570973230843376011144008152170886870799430837219878794644462367617803141186035139701643086228134701354074768888902491717256803897246101465327117879278289995549961893997838307902637879891241655086126954457499694305144571560209421953493624747458782565753943975547254487324808397210911287306727079226148528097188856573432356454140099970358282152269500857692358781116916833257958261328647997839274238975015069492452312631404859067570240791146334458709752176414920459534789761982508400682415466246256085753989445960173756540095),
  (7, 3702094528960113778121740836333201854050076953338958799024113174330356560994155722460986023109917932118692427077157637897805370839129531168573397811458076848435896340016866239963615944160564932127815192916149355666522349506378755188505287325099134744003767428004180318255224717285964163613713447456143009832681507723432474466038920893737005312904451107962788535855171911423627291513605933014757862034378341996607484688535795826445963658062254764633164354738172713688403179374646417234196071503419517702689547030348218821746909321598531894932211401635708653717998031643930832471246995428149450612639737291996381845109819159800648517120029237893878858473429012830381513993231942535610778873387749430148297552734093334494477391312523441533996136554084247277128278943151681587282231020704071283710648740452270398028768707017969906116857217481001521254279606157340014663096),
  (8, 1723922104090505176280504482022114961431397569057978130422585259345526136920859907968428927990569701473551069887894037132060793619197574988274554634214414678716983804487095326168283794150019498601469766775215675899070850343619824940574023558338701140137281002478758021376666015612876118912228125825590924281944291537363303110952917902607938886109949605522113170407326850771730435521146161034521561269319688307575096949944007107603272091440141032699504607656189918976258443493951293541514191121190083548872514408660029768548875366077625038490041345613434835732351356542954795822439819515579039509061945634628646878417343654138321113862605594221078626431427012029435513355040090366723057569283747145109098230884192031326899673423837730662847343541218130203038069219131723554408205261030454062911722596085779730460576574774953478981749585322813108691643018919046),
  (9, 802763786209051113706317023384438344012665361658659824366953810372169193309200884759625852103610384032852514594743976896657046684621635353320536499011523406355168579373087420206649133074106415082453641470156459090798557895990007063641223850817746082384735812656003060460400774894690196454631223262097185608904944517353225085396747059471876773103116827794403382766678394177803053894121068621264312234458035666695989636394500706550902855571056830761433767433032517431819982762739191341518109501692052400249831930875142998969794648972917056973018743500417504953336103299366879158609461120334075791911826012936797028203314313437568459550368936875291217965860142730971853060839605476656597809814064791423751340090998800596913261940763579433627296861625169146661969410108885784185193883381602741608440746570062234109246390831638377194050203513384581645153),
  (10, 373816018090141524423992737841065201914247759458916180006672539921556223793514484893356381032434470966855303661312897175856422020411880385745566570671053326854095132729544965646531960495797179212073628543948968449048026416446085583251539548308470324792310508273543352475576463572071025359738256438680545244787328186143760143498306656010391550652271522113309885732214150101786032871922460708478389749722277663351426271962230364619083615680831967728222606882573392335948917805494619267577944813347033997490807021656594860669047642450743529654436184275518983944883089773810390468445602142345361063308360192121510917578419090215837940011990468089112422018271155387764354782065035226612057663721843578954057579843701799757008993488187064608189010124734451827862936598156368603714784661532580876111848812046964670327617978222264033355208573607643),
  (11, 174071648200108448240902618431050890085402764128016391772158695348331808947731966568788690973275560404572311631083906244419711651472319097139670779309726006749130381610963943249793704830015627300401045262789804697524768494277301050374069972107405925538535466545048799587216444114256196357187934424113736136251747694864757425849468752746652602521829084545983879702265444259059630741425402293010839456209319462880403583089305157542500347616625817717513873397178850307085196642694312406645629694661955133405835484447085504841597623880567767368621244463743427219445962467446217002998385834594608788132670912205972007788872476244818619864634796508688960590893371668954376238702119109533314942401772424220164666939376281526096680976285591334163678602667479664781992001354753246987745240171013760485936914123023577477087933892397885010482),
  (12, 81058427784642413370731574683939521240723675176508907122611391985943451965102910329023697866720874050898622549643696399601042108364551839018087265691592361195539302011469352641046841084033077256940791971417984318698182932230318454268421033447331714228976269506406411336370019295372160317929431062244687292842076949246580445137558855464054552149879319847553912411567496256464920352101030359185110782923183336293963699238495331459359993699587556855145447478336807972762174217377005505383863029468666073537064253561487994503582840713536358749974618381685023052020581304963578224251297563893279691350593500340975805413067638573874541380875282966834785174312031730070400759599872565209012297940664321812902308308512462733905649790559492888897820376000649874013668495919343410271427482071814305482122855861409302147428771362981),
  (13, 37745771829338005450894858075277656894514185924319972806894868605743838457904248651593782876953889639535277406519137508981415121054533794065046713543865997900971817789352197498570587990820909504285451011461198478330943236234746153591396768320040644253127402396130567107521937831943929343451480875837005345542950997709566934563945445913846861640866529125512536806784335643269550219301376018595663813351366696119149425553379058957254876431311739052368585296581632367695308855156038552394111740218158723312508252066674539972688461463710537108193074479660528727039482277263069031840221591326393836669654090159296335471264455427248522348334333252465767051802833060052420213584644811282980876809407481400453026829968881779147408072264533280013139042949128429160838410701860527719202931573000180212483616478041219542619),
  (14, 17576744700473735784597163123673599629902367444857942316166529714010580656074103271399523539912835526995024367477343189055759050443085745938609686467734164512237449078518989262436790387528440684213047386827505416390925290172335763271617129594106527163240780307040813894719787795070525884372871776966846243265527765131353835837890136015530145559863433765951794016540206802668771808564717654848560787584068899043328176094044754264750278599820057372411874835717089574313745800247716578277463059085367520917804040567253404606582222036924160439227754938123588530036668266663336061927458280189468447606523495649986671375248765260367030068424002946899471616579850714295740957918532467907279585975071720681216693440710739080466231850943926969434044309130216847212932171818649228727790858842303531290712788765115),
  (15, 8184809563902083684037049824219941920555367807325880190435112320822933994268115270603226283524574491658725015575691679984218930100596391567312966318677256122342054303045845247077192360315677097166444820737235907647258271543465444478959371146795585361887132891938469323664804825126438347796384141299336330623146037166637292056293290115674094092037265080004834577692768910279856905968502350460849737073200875518440312864496548723092531917172767417709552795421097024454251644710949768592165574966265818349685255420661471486715053686445879782571812229988994622026135634213654265418756910311221532831740513350332540408395876575548646588969908376417155779541264693403281864487001176078655872627892231370016145256895981640069549233554438072846111705552210881049760948154436936018123526970399929009880),
  (16, 3811348957895340250822273001177209392448592841311302124725241363431761969937065276598197540046914709573017906199997141949934386695081550426461252532283429113375979616793731808232698757348431785202792296529391737490547016050417648851386909907122880854591323478118735050626473885554093098173096841806236808478434587440750231992589910568517676597478457298132048257483527488205515270002482447314848456981828579070324535245809653547038824054632683259529836058765940200120451775840601806690726870136536770593688030158490821258262739124971116783697200868408071812850192478089129851197256085587838566640246179944577333864491390068437409488132448222766908330174757691506044600014448496666175775805773385838913533192664614089892536451665582964681472377738631970662297398151600985075216323498989),
  (17, 1774797662112554652067959774833735726982631181046041718090531119812169098265965132321323053933174679788303517829625467746487998727281368536158116782216089364781966254484714850891706886397875745409537244834653910943561706715457909205642952540480941931992454211282886122645099594050130386917431299484445158614979399107745956626064102430137655044662979104617633045410517364836072211018745728768138731037152716869472953816617995098146748156219285740690936863192022004998614051183171553742974550483688302866047979864281175502054440594478685682244534551811174108469441715506012164111949989788603526964465973176659955660983003731907942866107113462881481301556586871426563821143722937117728442714460340204783849202286742777289563358188359042502055402757692775595854171579578277686022),
  (18, 826454564050098253445681079679045699063051110620629842435257099481378262055090224519988081386859845271475388589140711234178393486552577715440707645479631314418262920568098710333791974185908094704866988973065237954054822547108823994939659042507848670702639134266826381275942360074320056902911187840832936863871011467532234557934153094020511510159344926764086375669817144440520652612169725895287991586007329615999697061035491626127470078719947853267839738652021435748982180575691638541769749286627448344638632330354154410119655456221661630913427265123032434467914511960645171985049529892545993096093601026426565758458966605350042028252700357225652025441479302350549390320890450044606354191992038595707254072263162106203617468846091818083694224524873237474321741237723),
  (19, 384847896196925199332498516737970383401518273456315436603155499082700471419417403880501203884771021675074188313046801478685063070874930226914914159793235042327206079181329677968189108272040306918726763209824095458749133416967850176123743430947814449063799872187351054174798708443678941998123744428545672848760621374255155472985540094794943700618736877461935568447139647063110342065167491916129838520551822914010227576633465643660150519947953482647150002072122132458732943829854376237543576691398160329521719061178028351597966693974037133332733855503408651138065197144774452989006601949814996559562005445649779107631159859046036557256187013423486512293897974676129564753155296113523828565966743037258722251719216033435332803304884108864584289430338438862806),
  (20, 179208766760735399710246602416956044454834551297275087145695229565119590339910892714048365077362871577532118332128413710130873634887361073361204080187359378825503438329943305797962987922150784599933197353884622202603674222234566778002187344686973117787297755567054755135811263901963337323685988983393494435008904605291390546125145681017148276179969553472204704025642575528812916081448402240378422246082858235786071025374341500677800486896325212855462673057858976848803632341181006994115372384719179987689808441928037254382486771270180000873645043092501287990208527971093952750084758317952775445946529375912161025551319623194327125438939825730223429772528697978683268088175269406130475512251818390573427017017889749452346620088458347448402953468491),
  (21, 83450585026636440171974991642383879262411292315123177667006491480916547747287383635550907383376207005946020750388695723438110963854641222097540311602577277843609190699617986473237624355662048142372256775332904515137744239640686091967945613286911099118784887514568285614164203359728370478230523403451542572588149740030705251789253986067950407958735278955003426177982985731788876988356199232166608836785105057898407089561395383411203679217321973986303262054299082698814754080928651292312341452461698646978669509447496012157906915110785793454319748329466958525017218496496850175847343477382232994282815008783051786162375352929747398113179423414209112899929368838336235195434283015600170222688004081995770235164543077298089574380140871905334),
  (22, 38859706850087475111696399581797364755725158525222529502122891825119288520555656233593312736310161187288361019635897000989928359098099741198839764857002197691988754411981434781680639998829945988195136550503272803098775558006337886661265796649694023243517096859667583189049830362074249646733758693305562516948277940987937735295507120084944057695813284510558164787507732473689999015989245300943875905623575775470330749497446183908755504120902010758687900737346660686018932447925731456318659685892551893094461749571228982848975614516335013778300622052697861402975083510881611749143659351990835550274680758913151696466406779874615318061831599434543934092450169311102653960516153513426608157001438345375875674972820156413980287696927),
  (23, 18095461116213107067950255974101538190490174351829350694139903329834010694434706230458483442808576481085438756102648098482716995802754415757413844045718292562285789480424222900383472442082104267643362540054727719677042010243208094807931127329214486872552473498353540519741284829598967752761095153775793740967418039677635645019815941391620407666544071518897236769480598264734206631814296088175833790453740710474327681550442119258615704174196692651555962102365308180666363960362064758289128492777511306777218368661310947131300676804708782330477506960292262584846422427205519895168282845671142413668012939203107911153007069104968961176867188213141560021313770670252333545764049568697063298064953786524265392819716012272324),
  (24, 8426355717802935777208887028555170721602707333783316749213218376894486460105844880667740219649195895104407684925314084851516874415219955033349731958340058365038498062837972724988810923920061563906894316922280806897693318428102924864707108274667750519026291323059024531273769601061459515598181241087519443113085833378709810128753862782056148062702989562246893593441795721624349318322429221206730829015513370400525507462804087614990642763712363838261489218435903790081795528143402088333304775579286602293956452691196604708632871195672791114564406363513206053630258124710647763366798807921276399680952158256420680768381910000364810806522614273593781406029685491011576923855968444183368624361438179590272483675098),
  (25, 3923827650865044341054226750766472295672962131809125071956412110894213644836957045210404423833450253635834755806864278787522052608067148846271323020728332160524324543233016843436663469262449799062169304547030854456915202749940997392268436157455551679724031744086660692130108178156176356411623415112271646358433162716037217766797276249658443374867923613668042492795844962044862965058679542510991474632716382211898648941387204144117279010577307944821919045254963104779009542291485005278597229688125451204374975134144550227422271513637138780381199187351389583403936946841692374621316130605715966606603008572100673154180649246953530377993318701497994103793658780483318450512714438967019592371906941601524),
  (26, 1827174635075519020228752284667674589749873677179741241017548419020238167064710075599329743456770784052011908873386810900420906305344378969758433765139585435634630053878304009994800886727147642086338859306197080042639376013512256272262165396220773309340715289156260291175035842767067419556725498403179063922589273452399764350611819712034124807537901454934429989287117262016150533275553077390902714861554731617112518621783984051042475712818074020907940302376754811000505780266233841715785234190035838389342418352610697562390221657666161450455467176576014907839219282051290733683892055393814856432379156303252204087410987731218073272173352784294899948877429433377667820493670727712150997928348),
  (27, 850844492705314895244665576455963118816667086062832382050132574057317416679444758034930445000888213539501609687407878646823068291574893039538727032551348877900573450083985929374956007454147395718069215913394968976564414805505544074001799056409286944819947373660402508068380804158312929986163231566026075916465464765605425196023581741577997811190216477104752002230319259518180155370046139329400938862318569030678423396868433333241255376402195307505209179961401837515642559972493801206905481824545615117289029345973063179315891956043808915210037280824134768238850220703920858631508004125955519658329743616431376940540420156836701318611266988168539092740561459573599462136534197722377),
  (28, 396205341771857298558887828353775254831028676621072172210613532949852485526094566115611440036859462754568834643535259480971409143682053796732205447066272086417569522785016302659621465697021873536551937420570742793644040266752962057479563661110255375886311462922209179060710968523432002210804235088497329133469762364826119291465618970014199948385217809168824008903181701278481725673033581589055098222968036093031853033589783023308731358671639170145338709442522189380954630277508703754191810809819255980890891421491754988736044733460096506633327279928555033187292469041705825044093496901420460453914431226791362655362955794043578695288740529785453436270440234966456335048412),
  (29, 184497489487685867845494220198027442596400471693404099070752753387136610935486185418260954337594780490998567381657315176432677145899298506198546591711357276149824970767375222714441579625486337363976956075323160175999645267963857416752522653485767252690303820614800406182515885924655954850011918763930719317553445274359302729337029199684045517168939632098713976284212417418859095713891229356036962321833032574518057220796776880905644446535933763121932203761186749695183142704655832547445794057334632909675065175840888620523240803097638954784697618611484268302420206830347495852283466671630013433991419906459484232850712113335287349419907348056494900512252909780615),
  (30, 85913338459881892355854725557392203526757877177281351327315323700726316746085037206421119318155003940220255116772519041054266107221738671045073583587704820628196453101642067876850059081561089197162983974126707844436003485677697424195950224546358415877799760668958414382596948463997007103399550784013643868890688236096539188924531558241399897615743750146095311941461851871458033403205237665929459429410687635693578024527203412455051219086954000813020927502079145862444488714788075339487122118084614343174811917079423323001661892739737853487821421917429289609442862186951823452121514139335833256539030880884811292047094389326507808684124350950908118262238),
  (31, 40006515784134106876260938848085796240138764110059175327101407433266898964571318219611942450588105218587562030541020930304315922419418893309810004936393732497560071340595403628819649611395359596779096859566265644708649947157920070083788701494855521722126956686597180291419257699164544465227174316855732140941832891290481003015120735153779262802061961336642339725342852633605546422249214144990671490560301626593290105427716371296692889479370272595253035909964005732067885509450795509566021298658320717910615016550673630476118727710496786892815075489529633445155563046947068241224180049679163750569402130403564167752247431915387650678966579920549),
  (32, 18629485640737277863668715044896023459797149575342971518217310045504429826778973555011647963238929034484346411442859531521944293016297227381640116188858511158060315689349269321570009743513241222491067303142634054975886804590895804615592911141344126101781279648753595547995026073034798453694917940945641996368348445855154456277201914385864512785234192763644270477687799195224802137883527980388834366128858396164200440599489319097095147419177724244123230296329445767843703919592789022097586209526384697848418823453901033020763504717796415538627952956524625290628701039880323464758304407209468467365101710680092904029135276385366881670740),
  (33, 8675030265346764523381700294509540991763188305936274825696512146622142673832817727239638549852617566699323435985883479715298997711528664166871512396660871411701811332883904372141701049876046004933802086460699352890200356296680777527693283064780359614022637445460683509274997351003309885799408157540191026151853640658111849167554066361902872580522576715447045356173411676271831800395029191278291695145674621354556889946523952485376525347202449101972672569146737919297108591522494847616543455020548004112813922419790945945209413054383479968106165662534536377960739541703747466604662181293354122646215995974713662057431540721270),
  (34, 4039625760794973244602652403763281643280381479270884220347046920388072111566000491026620636625502988090423604466898124532447661138851504850607138311798158759112381996998518878660025563964641655298789072065008502868097441997207322909463030769039938589186678116276595976317627401325310398502893158147223297582039545212039712312749036786282396588611134738197614877195669000750848403054331970238478280605547069670029367604263543303955464051529298716480934955684003732122978875105822541823547295404065852694235311681876509363878104974619139375060083273754490144826471059068647311238835657147615132422284778497278608416721),
  (35, 1881097332013292817679537648224868645556448716330753741947490219207514129376970460185138805129333859351660872095682716245040139713721119263492123369033522326085894367191250845165935141949281867267000056833498414503526467038932041307332562322147402581741621095506238880396971550828671647482811821990654181389246061616409282860763976777996347712744628613452198116671337836651374616989879578506216339609264464684647431499512950860380206168819009068499594223755029057027066175866069040652235076472181949790940396002045193701494800426152112187904242061559051668075445331126729660525845559837313683247059430228430),
  (36, 875954205176463731415354482934283393228635525484920359192178686711710937962387902748369986717279003631165657237024380008243089408483877435090077747140788625034454449634650184384516972093508517028298255754388992213946912312945732773830135235419793959610128022262397984589822652715638424232905788203127624456484079945758526807026458524346745566280227319312020152359720942200370508275091500397157634001802467165513953442842067970708524156504631380481576417891587092304734854150005444946389975767814134928155726768760525025698041674200577630530794461236251325807385861956097890484142373349978786870718),
  (37, 407897962805099660258439594383483470058364572694953698288732528086617094447085588587620289398952854625492197106138048697376199722515362051823212647410476871316532813773793254226686885623963790731663187223693125353973538707579820049936513843226990975846754280859119711468435577869775390256731800775904284600700102761271431225496557617893767490774023150315831232627625871250703079579081892834327645735293242184749757394573619601117812574620449913171809666266607288808867114993609350101573684577253883008151357748072504001684813554888817518596266117243606275340378443603068486776791729639500),
  (38, 189942290450027054296079834170398986925540758620460377209229640703004363201132783939885110314447830722430812710029095736041758080253080489031603861325642499754453456855282771506666618224216527535056530932549299949441767709087559076968150156855584642058245978019277017033037207612238376589085811884062017316574843552466030054451472172011034247678345859331671921964926606607883846558372954855625639041179681314910165251980546506454959391027114182903462585785464174744418916332117698118024575922413215470953212539868797787638764152725129565249697114793898989990496463853010298456009),
  (39, 88448771485140106778629046944155817351090143723627728041834030627740716189673535497805620690084915013253135937279600527156963050483297784361803839600478531678418375949972668432941016845505936247636305680899059641009706421411902228348282003813215787382146435473887630071424635097150763319847490682166381342871615133326087566751475296759288512961509632927582603781624263395704979515103570765783658840287581965566136198435528846422101930402530312420659058065617599986949043050851381847254100834579296293116692632628837377907949822494941999812013367496869319595373894522589),
  (40, 41187168790558402789118255928231318179094299545338250716139576690150758339871436123645687797146344097914703161120228714848385681623265978117382079562151549023822140142665121737271907467472824419624385350672879316304241262058403102216418238787989711347868058180026450748993613087575143072012187682165474090172285535033066876925282650853546281772879181445457034396964991417048299055654745388380616932632595325935898119529151565298453208254041409741707047391615535445161942830641490174264864975599309522506958816677189948928424843159243397975618150298387105645245),
  (41, 19179270039572568046449802782494257287631882142898743374338176422822642298355436010121222490978587464389718678370224644825042077164755192639949768957820490782642479130923463606074477186878985550723904891213090432288311013457041192593801839939172441547523184350445616393746767461103061606553127704490715866747925065788591539912674194036363101779141211516067862094822074538323008693277459181159162197274136449097367907177285636135909553731235395456849990202472945613106574644763560068203145310982783700541826841006402907212230251651806019110780477397416),
  (42, 8931043576250117293768470539941572252489571526133801496745169359642380056136956443135264558241976175638716052458726169925668312779048081785417054551559881549496005668099625811321194153118590630898482004678632975034060947785569193794222598860617852305373998635747330883852020615765214619087954893109852124850077872118667140006355981461123916038513131292947679104713774989981169292178050938079253795293768715710214195070353723162608502689405022515004257237292198344883645236837892706599587717203501066861805548333011050111498995556733018961274),
  (43, 4158841248718144974563489919501157595072673413033504736025430895221596609864829314469948670939531259070483992089855563792245608185906001710014966350490097309587243954364397338719508982282348092141134602802396663062134923492316735198446277097903561371178645764291302020277562063430538607165977292508304002055730662973757037203841837189144738567319227478258347666724323373572444649997533371941942340858768799799818155590949546144480943481354438971585985543613816563348342863248947578133782670163790255705268155708278065150960960203784),
  (44, 1936611369586617208348349630600380522698477568586126312625329427058620662365494908052472710115616796105394136202454363830501962871728699806104956856472664660396657588342847273904418515425148366681421005464202548348349949768984312415749096659457773954330204142623345472224115040771210972596591282772866082003309103534642481609045114212152180916654081217386266020275699006542580920358538132167891337024725342889215994570749125099082609030211157091573579412193015010347594316584007191239190337402510548254197387483933859127421),
  (45, 901804943376508172763674347941009571169725418363756645762049326234786148353244600841995659338131917689644795005421323871638617211661826876787790952506578457113443854261074808197274260305040353306014984199155577150318910594779062363248953604865358214829152716838069820606440659623001369635140530938607444634194638109525160660259195287681799973077827041830625520904048248743100464620472460480467172041453460810364554009900266318460606602435150644605354818413962923696833119705184697625220689416294753837791934983151),
  (46, 419935650833187705261481156545229987786023606715610551537037513328150915146453585867767994915196633753201363334300867573876097361675953608522872112241155682693344224342010507803341250882976617115844885798701780485428060948477668839104589186788034857174476258262783007056978907050490965385259594297366207798079659018589468138930757917077283225746627563010928886624289944864615255794218742832102083650753082646982493167113084632459593276613747462251527795536518126912741365413666125047066417254703989487513),
  (47, 195547775753395494661052318543768482183117236343962397210783098511468113933901109671112147586046082000190591946126772793676679158698493049743244237508025691098722589823609953319409347926476281616349510831361469284279746283906449095150084614112157127567903170847421026231392010671135041057585208597746402829040168454678543757985421101637005632375002474519601826742715989689305809863477762828173423274308674235386693750923571642149356231281319886060141432990098088718495660313554422793591928778886),
  (48, 91059028987491268041102363981198744002318585451674832594945607013752737051761294561956146539210379986309146918799823188952603224575294420144158612935559073625436055448658245882434050399980691457668269839287537969607677267838935891954860512000616706609830620920914974166450691778511428589189836133135042149699646301068273131798469023902515516374687736762045309208030478601653204749777222235684105745432161704223360375918920359110602101540773526264506984428564890191198457731992067277361),
  (49, 42402664659307928775019181883520793170816537668777086117745194124874070776515311823206090619419882129360210976074598761715970568965556333945140144087838176563317107423974434109688912906487023092903925324869616515656847839983047616527958491201022245473953175039906720768860938360092278369134668220651847986680366833549157610156197212410347585572611449292982397768466561071873791641874812032036321185624132649316319587550352907680330499690940815578372492692870457531942025891667),
  (50, 19745279410531711194207510856688391962468874486525117644402442188000670177004534861765815730049456792050305219368047657807833523310567379305887089164836767006631370638832708113041367149408714616006972559493554814729222924377647536008823369056688821537644792515126014440575748883614846040946178907577512714077260748563930701779402084731006499393874265502646379316429291366752786314633997152253404249822977573483928524548399490213031855039016130380350570941408025059212),
  (51, 9194612228559195620104442749493006599354033584951012459225295014400258986352128289810173615890653958180678586731933534280453430248674699965355730637461260618328496923949230572802583879258607320400735542256890903035684024335386649867622703002775657234866139240830467995775598141131428654283134046649206915099438544808267595606012273485181674684930046069208441692248410870246249269743683236083220457140226241491933292548197972916030065903710529996070246431090),
  (52, 4281574966646356331233141361499673966017567359353887280199081418085402330362219972100552519450477023513039724867090964834724028235550874064554096703030845661855489009748710672073717632052067244826580495553499994625439098914649406109135629138608069312817552251273540079331671480666094188782829134155347659945271841056155019996428372021928272080836443785095493665011931798790421304912724759874407027829717616229075020697672190199836419242683418747783),
  (53, 1993763710673133065566952042979967764586940364193825606129966778803613464020606936542511398783242842261065647399304475003716045251830997059706736531467257254419759274521921682895686549104815172050140549150753706550860584485113087523536770924966174999040691718020961749767652798428891071399144692727348420824425150164884356325158534767075835491838950143139158958840261053793161168033564704678765791133174596877254754714233318143742554559452),
  (54, 928418576099506144210208227382958023288650596334947052765203231565569377195672391906850946967767746850326026923266764854052683738564906463699025957346488997026559207591907444382542731509954929113112516860270908024493218573523511920477059101649324436114246546341507145095504146239152629626426981584879400420240265946059769211786168928911293970286757640620606082762668103161767334276506651112709031569512698078251883654287700493973),
  (55, 432328589306914314725533387330361205567143361027333627413046921493594443794312716382357351829808132913690522118521819356922966861149197536927787752891659575208985751112368017883413212409910139877379508577835178062390696126466260529686959177165754771502055439796603833509737322093968398193247667009964283733375736741856377588894202870226465328415573821004173905231617231045046923768735215974826448451228554089509564528592),
  (56, 201318687436596756872220660898262439405993883616932017787732213813415154888911892290227463725631826550604378892147344561584281361713443111902249160692328210395091752357962869481975959757517926716745944092052325140704885016052710193368941952249229331579715326236939264689929423672445076088086423967608209041968100639417322549906555183438985246475160332023178998905709466512606771176349400477881638505162817104069),
  (57, 93746414753159265787432796271985398717379085982255728542703094653405706327021993422964975434981384346773031779479139251306185573362701896847554789352950029755587852420483311341017746797546122868163740941367202810077520535344440868468423134820999906766311769120568097664943740471730275841729377447641597727762278543370210906047898443372852503393249475081736596724557753237747725813400728079267653497854),
  (58, 43654031412204168858283252528635610123734477699598434458154028680725176846150782804829578535238733490314049468990062265203861873528798154934381796459371868611822188427340554909685088329043743644687815476027156450605694070368182850379227136673570244465975178335544870537717899186419347112644083369488494609927270727558837564612061468400188483217068449790764962961515714393358706497458031639298),
  (59, 20330485835092164933682872241282770757244536571333986139601619415161598302377209740090189114714862269303296622263091037546373936503338013047701923879779744432324568603315993609947591002876438161705123355252747274229995289806653955209204319469148288250014418248641633170682676195683583711814227858605626120525435958505182923818350029385482609098904758504250065552325508821020752173023),
  (60, 9465964349146051395711044588176930574629763658668451098834489096733425012434034426207040292475776041518826642240896875389184714733447596673513978834082143168034304452393648715891547206832740993140880497672183310597480101818877369395674427732720397933731438708646577689613199040026599773831180577012852040611103373211413499455766548312072288617530415476625135246884468458587),
  (61, 4407926695154826492551440514983256867814485656704852609458280039542282347568516931216343253842470911275186553768996029674481671125412040189716302153385742810666384803213449731972358876550445417393326331953341102504006726270394860040571786576232692150860041800415100465959127640126607455908535788370297908107339850368647903363564288316847154160480618844014914815074),
  (62, 2052601216844073030825451485065882727873907766503243707760358617053497437718651685300640770315599012251158809422244249517278877775972318022121471634724974829233881743396598602048806760875865275713778325785631117722283210446569162280992999323435416642452635771058321201867528322365238103353290172324112373571799288122753818382019582577382777493289210163792),
  (63, 955818041243895513104854509156591871148085469746785067883492295376285316849673897159626813942475442975107625253563748035636078928106778771536039501231572132021564291417338309608658644842631262989633144288655355589046848468830189319358356081664429335673346521007945193831049513951242396909955835231752989481730305570776333149403470001281941286892),
  (64, 445086824473238321152344576825216423770920590204306953904231581340956369942401258967384009412184516003786377346935985868714491069833342100180369352482242463442489585499193175346264005210565345224334135232536156393520297160625873204700107065677855197175011625472859078099168692247587185127914618812305254240443996379962529511044359733715),
  (65, 207259960372276362944872037109231761820640811497610566783455543924726965146538491712475957491276154713662351637437301056733301067135041217708199164631607440342141552508488914163440156654962801413326048610357838075840081270170081263777446376942059054436830924660420185385024916953264092943668259250233256983476191980328731997600),
  (66, 96512790925544456952033181744118691553450901901130682204557411891662708694203986251952341178594200208725319356261266615711730438461847994393323926202365047931443402187616571235741793523790203086033135770435123742447303364837212869282468096961075673106008962660887240608609934371662456454296933782563563702623044314592),
  (67, 44942333624462283303748692456868578782460511256076495699474107690966736152771153086325771011307946499181951041061725094589327922290527575348003951282782507588841770209103321269916714271374381508998357819578280632630356379940004884027464508607311055650209051641597016290310645893336190564209293455843297422044),
  (68, 20928695021768754658948496398619212012775571292370510351556800450205741202638311459890864447084689817817248882076506552903218310549298630648616992003388100043480116175991179038889428217315839001407406468180732192291394075418698100686542637679553347584344398981069667183350989392936376298751028878359),
  (69, 9745311946602969502704578743369194436904911501847486826424838562413746843170904021134861127850834506385139704326177898354456178664515836544100244591067681486954907799575668977370350160033086614580195942590505523558206535615360337197793179417598339885111000074451523172121846466012061030666),
  (70, 4537997321906127654606536260271712979595419670668322344097847797482283364045209136971062428611130658980696450032688998748567728143969871007015368765110600918122316353952036701385542277831864008101164578068731668223047791354326451689586793218359433949338153482783958555084928989224),
  (71, 2113190994608843908010067732913300800187779370487329961495297940649168955134194898953973862157135310929963215361840781054192281819885268363864267547885047305893047793584683471341782301281419791937174125888978862057662927313208255537927504645334985171823018442920303936742),
  (72, 984027655577020206942712655228380495299469460457828975685263538179148247969172211808415022953488357678266531436708339155800803049347244008973283724795310566455522447197314507764610806146520921412952548560963517597873142151736809956667155993662437028265736034776),
  (73, 458221995187772109331191710949349439046832338104073283512487792284515730553020797067750523219659708802858184363233109384739774469984569999393226544698145534882893212927087735573582648356892662572125982199006912257862310175997559699188039761448359856261),
  (74, 213376883838994084239867248938897746367112291591107154358429026638613564716796537716841788240470700340727671370530121132230947563034361136214937230629960078909142232659138087943501651200184956620736236089980529710680158097445990032120302552195),
  (75, 99362431821839830991384700465489431941517590335897037199867992973743409702744103084144523825320450285894357986651648895567343485151798856567221441716736660721370122667908517188461172236460120989031882048992498986506625952582770954256),
  (76, 46268619728234442647616983823872654180796082360423201803716357983029006016062111607633618309148039649354903619938188285008708166802046936230026903800917462989286198934489411548204053679652602969791917571310563767340209991868),
  (77, 21556500595620092637354240721259038592953091309003219169016882902278718899709411839483504233011772220717211196485124910511568700397681890940627476691855736726307934792054912235290773843098850506964888197625148213521),
  (78, 10032739630543837700125266088818854974057099073200410258319799863492618895883065099335982566727332909484139782366155797300891812874079592011022917848533778803237416281109368893483169179004358744748571856709),
  (79, 4668904606143259179350122195670491400228582856857410499908906413689277338967143340442239978762596418141493775675238709641264768804623944751742887843249034101535595044754018753048463153475886573410),
  (80, 2175541902396570010473818086510521340469809010927146652980023115631103107379020949286640405208868355365089124079897093560699228335909480808859720272395312300317257326692278209386100662596),
  (81, 1013064736167444909976370207098203428941059973851498876273886318348335843957164067830494213322077521510698991804333791684819753711606616481726239204484288047745991674572458403348),
  (82, 471745066074959276595749284865028184088672163322042580637496891113795559027717830712627994084190644938534963925080590703805898678438665063670444724684236836276628124521),
  (83, 219673561438356182867670570859578319101292896711653117252931988509395543651474947974833685362737185786323837828199119747006704593900517858316813436588482581919),
  (84, 102293328884993528400601918345805910778002815224410067674736832442124364369882524567549789945767695662192191552399251204347174213583139799074146263819),
  (85, 47634101326738319583738839843552261957111631620406991849954737205899527194193896613115886787489968038069823382244951630692737702007331997820),
  (86, 22182464584147165648029389455501577716386187387208711427290618583814907147434873359794328936594398387298716032678563855469920712410),
  (87, 10328947282563646951785653231642995402395431460997910413530987375179283328416676160384220078412715884010934302194947094286),
  (88, 4809293373633079914041119142337873731587262522415888491788753294875674298576660856311382767955931593912251370875),
  (89, 2239748172481207906391025601964853423929925059053444251978164546812367823102059079198132013955757895703),
  (90, 1042965043943263494470362972102747373300566521300198248829492295922747569991074169394712477053),
  (91, 485662209394664905800933799251164424016832278715478187559821977396022288850980444192),
  (92, 226154876095634796245803122928865340598849437387989802295719247944937016370),
  (93, 105314254979243453845069130183764172392020971136730350270561882197),
  (94, 49039046836553142085375288096285725037924951314220920601),
  (95, 22842903450548450576747738465101980451325092309),
  (96, 10633187897823906029283020164889865827),
  (97, 4945145821105620606891844470),
  (98, 2306114810851428110),
  (99, 1074447079)], [
  ]⟩

theorem kasFLow1_ok : kasFPlate.lowOk (1791 / 20) 3339248779296875000 ⟨87470501388307469712, 49758222860404794288, 68220598462383869712, 14437427194442700000, 14437427194442700000, 206541350455486083264, -299029728186035156250, -149514864093017578125, 0⟩ kasFLow1 0 = true := by decide +kernel

def kasFVec1 : List ℕ := [
  10977062147738391702282794742587135797495898764637916041367468561214727432381300425687774771565975854328224987304798505727528031822705836624957660204661939720771998530749592940830196100865083624456226952933291502923854200941390041628156735311375003971455427236555139079454677987443701180700670639690195666046700888024418438908974357145026883558591584709154832930100843911945509991719589478401467105636747843067916555833152866970951589320049619891478441184124797900301276951299535419286897865849007184273222146513123101266769019320192801752913871224059336636973732741016278325649744894019965285502411606547238883917333975273529497827733815313608472615099076690207790156246944344427664934689978152096768663303304787596094028397248537116016664079277526957167093191191447969033648615856826274012225980932324865629250094368780050745946438736798162962325047505914386704562758176870702792766906726108974592777682944223924323777498249133540608208951162413927303735105515881565526745146600146889556271028869906159099924936340664334117743453747816279123998323603250503077761118510568107799897624976571267277250695851557053231309988775139109355093854074982244805418270044271167377240389200018019227066088455221173682565591860425888265981525551093674270627977622709840397352726]

theorem kasFHigh1_ok : kasFPlate.highOk (1793 / 20) 3339248779296875000 ⟨87470501388307469712, 49758222860404794288, 68220598462383869712, 14437427194442700000, 14437427194442700000, 206541350455486083264, -299363653063964843750, -149681826531982421875, 0⟩ 392 42 0 kasFVec1 = true := by
  decide +kernel

theorem kasF_brackets : kasFPlate.Brackets 0 [((1791 / 20), (1793 / 20))] :=
  .cons (IntPlate.low kasFLow1_ok) (IntPlate.high kasFHigh1_ok rfl) (.nil _ _)

end Composipy
