import Verif.Lemmas.DesignPlates

/-!
Generated by tools/gen_design.py; the certificates are checked here.
-/

set_option maxRecDepth 100000

namespace Composipy

def mikiBest : Cert := ⟨339, 282, 48, 2 ^ 234, 236115656277345855776336941856655071521796522152927080953901881373895000000000000000000, 0, [
  (0, 526647232117446128923315614042172404773316401045311734650206157156234286530060148098951860480119896143755588145984806741674300068180797951447452274194169922288278091300145584071661744485642070815391856964113398941625346425623294036861110000567561136304163184339402098540523602823675143105839981167458162268074259015634761390125340580184409995592495617540573554252683473329856400239220706740330171034606947747831307486141840873898297347282926735435787645862636217433226173278442220554575472405788763475426760583406549743407150236796956211147494814181976494405898006452032760933836256136355809079812504365231117903725352683532894062318973694465332577585893390735857737751021336651838946761676164832206471788323),
  (1, 1871026825446073363406596051711163414571062450325597604639704333195859527912077695429189320748690392348676383512841449678185412850626784728414622924531116740418078844177666153443521753734639802509598319806446733310303566882677667316785866931738726869042688912536082226086578774000645078702168705151225393904303902214605577890479862785432189210765458733440615154709633637360230806745880346747046102924559475531383148567970143767756115185033290873158919448756328753103488110281047781505308953289522769204774387996703545449191242018368724391500968238036712866461848603937694778238569985053719721691218640659034375951386267125874531828614347912586808989064488166625022750447332596978261884059469951),
  (2, 6647222596164942002184958098038561809669966075111338471400672507612695227095676725885160325719490943003636060072528300957321124722294264089538725426576336125275671530708638367033013279843518063307700004710267988994654388423676684513351519370758006505410557879652546986187861144466702691021407019706024336412183301321735888135834310818493581229754958292282584628900422998226687297361276799458979316907526328232751237490059970607409787193776439333586464112997394603280701889763119523699354013858429646116873042835259394561093317813513639391095648798242585820441332728177454903210378047468866120362667685889548838963155800624921012393056670572025965541788411763053196654809118312826),
  (3, 23615678643426967661102928623643612872022736138118185321135458237096909880021928266150014244287159723269681635118389454537058940268978408050568181611688080906829594396807336259287071019272313561483921339090894175444614830215984258289503383669027626562271866043721924920859563901606100987212185518849270115884282828093547121022120048353072031683792404087476540365064011373643708703974635434518403894269892992897920134975169370276093167609330024790386871381490191031512873960577240182224798402777235114867054653437752494670723470625021705427200169667446727378443150605626196696624008718283722727832265957351916544335075629862672691422979635369369003102831531952547608),
  (4, 83899744550659845505091029677812787468918771118773439785113972665076111496851496931093145705514614445766894561748794289422978352658900852182026423502086456344493346391807152016993790928435615516151363278920736510275747592432568817654952678461145822097663179180124251714594955202615208682215593020260054860343909639658346120184982335808616145251968937099354938983798578800512246221925119696367977254365185729849299733406961751767725377349291245582014841241762093556872889127973378704514994377796874109523303778020977659841495384981459877571801123973773830354553045283835296742151000865180082911667752776500470144902958476287240842201073022595666793972),
  (5, 298071770112997020536806153067078595131955762265268958035996052533804286699320218655959797990514255324139323363427432495930775961511389580444322658815565268967937554807380333365745102401209491479751948117298680170960983078433785256831006607057921678506139397132526932594557728088837181669540715830416530625368176701288688533670126324025530428302967559923076768716159847100456439071687885765678401696085125749510589399881981516964203824986809482810995305164190666152676782062910663423735024628719933870928971247528942179473307235465748961938431700959206600054650461614914491625091674359192809316951694067917833686346497484960994216316569),
  (6, 1058963654944722849424487354024927992426639499489016877603816810924557098514214525607570031661858874813265260344260341036820528382715155312442068069671427291688243587001602433309147035935028099502897539581720530158606335390446881092718953099719064126216667692152822070902425902504402212275197233367010938302318680672145449934270587893419341414259301890826324354008812329251158665519681817094635907556960807406312323112504601910805778736663161936053286498983381802485958253849449081122947165781347942644192332683117886563983390041895532770060514423131296564179096489426613964309605645749191148710805646682201398829300514222),
  (7, 3762194662274690591006586807143207779896838969651955429198923791476819284135809076046435108018282544198242870902840198976355219571207298016150295478181627235505600781364307219160856301769594166321824830689229487420504379038775899482785963287795583705085955254976452181910785017583869757554827426020242632937957390483622645750576968307767917666596377104723199921095077367440997934510194519304500463245274916912472324460087411437483581641982660255863436153348442588094139635134510102942536460809546233128600167242956788442863443277203910123013153720010780023501102990315725682979187412544387016067777869966813),
  (8, 13366000438973524179454652508323447718996273784071446148398805290031600933303256354798929479053564308082410026364170862089646692447198196250693774985845428365792025967739279077223628426431972251902603300260484975388491686166893544114725840951504583043602467341186023410960893611913248676025223999328709573950692927436421742018688176503343568613674823611711634763490084680249243028278316113782835246322992089692643783421061548695520806961846283001296737963320859313549989626962677193613657755969476040993660204079340595005572411484870914240634708189539851161007276313373911514108435601822236229),
  (9, 47485572590394739405378219417469579322941348863450081368849017202761334506900170832462498108318855500735402994785976601013171518888195035071615754286108241925673911486727670596528779616502058915580437224469265189441969560631668239123495036153907739730397885374398777701231172071674255357256947978005970550813587651764726946461352371334163802667231380339402220331963710944033922896726463364102232773888256049764246720822365344247764848275690092536906372083287058048467329956791252400232979320342089072896573348429860097595845990083238781380421450722870425767577057368150475716061),
  (10, 168702643287569527094327595113546107522997448539037468751363552153894909604404158302992648928575844638314869774608205207713713299868713624088947438434393851425264361251871280800801763036594019791914670523471482796070103567724480947028346812018477688312637961165128287181417441264025298225741425289201855201994697006140662186355840895292211563286251072687444738612874174913887623199620991657533583183325442348801528199088950663463696642600800729585842373546341238183439698958602724477393564050063380161940160830465647549610726354115118737527894040303399794371602939),
  (11, 599352188457549769020458523675451472183075369098892326574072172298794603777608920946536304543087128984932681579934072806056775234026935901281664292397768202590902213180277935402159896180585672119905748697199172521843894968545031757863706149924481631548196850167600612527946785246237485010605519561824322675737495874738248363196406342114710054009746833703697596231248622799358069305818150687411858827617422080541337640684386083445295169612727738719621447224000098209596822679825188235805811671404089956475920286825217360123498065961219858131226296126),
  (12, 2129326718352152770636317753185023605706317685455858873574442825922384527990547983288167815427581533729055264712258932953719586714897969051712203790096631226944424828920027466161019389549172931091183047530551715895134288124749658471685650895800707441228892371495509825315717320958178361420315321608279437134090633446014411108185733617429335040813055895457747959689570926039689452315261380525436542135844445883315785814921496358857362479194841604033083674760600463795427066172495550666283605464519362654867491753071900540238386288762934),
  (13, 7564888158925074785927896503725604324963845518879633095730393769153410687488829407556664163179439461718375760308933543447673048787955730127302893047867495780755706685323477207941063153875796904449681590198347135639211626526416415686476666583080419579442564036651468556407061569614925418716650328285626938352639571124624965471448835669159706841784763221304572177985343520782266176370596941533247919781517010501244406094190427533956763531124733712018372622923902887265993356807249765549074114686115979391914862511126859474),
  (14, 26875881640809050970829817486153981206646286032643663012295239260912263675914816467287927342077830689488994891329001981206951057237625119244697490028915296587057728539870637433398283673915190658596504900616565073393370817276936568609244813776357143380099214330345562942493040431539337627212020646938967347599466781933155580366217106965499261777323944030366086630001716486571290967218283063500589437977370281623366307199473143832996930834863109100474531012968532859562701789153042071968856873687110008868639),
  (15, 95482312335125566600985598193155032529298821925580229999352572657650778790734455928744213793967125445029906151495239412799151174053605627012896311957292540348769804455422846964246898683349276413209377437660137288204004678725551379556839676541107270934801572167408507921377872380712481171060860012531776186534373788648644795357785410996311503339537265771388803861690805971054392476031285556739462893491777606521743324908618605280457077578816370556852095842253905239823487408375103931015334969),
  (16, 339221317116502400072113226035082256674559914466281627247432660002138967815736701163728939527667615080719725386279949855497503285568523015882530962672234778922220654144082556371316654705260633216054793043515336840768517615133925357847779366954869710107193566272866210222424953253250576535080389252564105451897781921505332610510244678472193053316295905398224773219380908728483877837088072536564622793431071840089170381769577930850644793084185290671901540165389534377505292572146),
  (17, 1205156213460520575986576075317670355764508098579736285928503308313015522040014723001301649530100983618042420405538247387685328249415938876158992229221306112815468945419858642862498126690166301649280244285583586532851775240973059686108402528721233166829486273486743818377909792193484992350963884332063522717473906634518403732816362206965789476662685641808877979114345868976194138091118623271998601938847666226460411053123907399951982934846333478967253551094692060),
  (18, 4281650085858204895714361698833062792195622986539177102745283879600033321499517977560927356475334762190782543400282470545283309811816803692954063640675699371963458439477200872039935572705875023679216839489328519015276820636384634473502253774988003625570341466622712435657436283031404766348241962475299153872916105150707992312057647156590527648993013044138804354430578899480876146246253771583602514127206315126736739333984398761546058352768269484723),
  (19, 15211210060795729531889380652426307111286007406961067027806742235336104813205791889203774029337706173787598785854579893871606312156429328458527715973807025186124876364217489963154115459465628320599869682012288668626570847781277367675317011412090850547039032703472528527893721236187361759572430323807859149560883376056469583263214047297631756257926935409483539107359606879993332906861419191026101693015706597302138667036114280693525998),
  (20, 54099026078861973693817401432064280538230817071886706384518871863032323998108626936225984493180110650148107582784672179193948494719599967549295848632400600114272824108945234673886599864111532243547872267654578975704847450436300099736465008109035789766498632838500217509544521907221781665567818545490647679507243910954415475976476422779340919763296859588799738867814466868318090864075476304907016749179425011932616455797),
  (21, 191992671612502652854737134628815267929069470358661378031093252286561004916347569648636534109860341023450605192496209468654205731626905272152652682934965358808471345013614916815066645352616653492227406566304270772388324336348818978334463459419339313014329856968255599826471304123099423191102875602521064271228633760385230006532495287904600049201860696224978183770980581092415064181772726512587323063688795),
  (22, 682089767057087789419331591547842201907043126948390865314235501229998359099429900706067754024049078634938538910210885261218861904767861341562566624822921360886455095843039458520691595604814638534485118639308991267679302910194748257227090291514806071366726112688596027670350083472603109968885033887274872383864427496922378522685695169108837708759762297873505980614649554126422290148937627990),
  (23, 2423300306462241295681674873253577130581656736185344439113331538778288825804856653144837927867346308888500572314907203982543669572674981861205339096507080187573769593922109646576919199822773987496073896914363161149498452434632823730243678653306273196100667752058969332922037400761580114383641878050986972249233756440791848890294159635280973400188413785557513852866910698612365),
  (24, 8608912704181438341488983186971930369441172084507460112708680247134517245126358438742393470821262663544861932597550877704122322128261605824443944567379094274965539297651633450785368772103209358238755702390402908640388431343391145550136232511598065494911515594741009360238506697798532234594365994382725411223184715666392501243762612932428936766318237205350667946),
  (25, 30586360349507960958248325161177428428492153198428624469665299862408471521957847085268446873321051146145551671210450402966853255777993030057004147582769258558656693530121690794061531132910750811353733037244857555117102811694128174630758395787901424062463000237341756305861703832849414050847983061786363573348673991278400808376074501746155987958747),
  (26, 108667890187412418033446657505713528884529931866464517479583753176291620683551809741841198822857006350553273890716285302939383935919913475307685637412609133975408046527126372253086870141428934498191957043391658148347382595823843628266696975423517196948632800338447319414070386167407617028095451658638590941742682845755652192465071652),
  (27, 386051640458356157860379016250246482569623847147099071589444928231398367791434519770283033281994569734608645475602562973647812245576497048083456744615132547419319213026902877215329112592149996510686952506267049332099117350061315362183248822076562449086583733950109994671747212848192719287704211742673463881404023348285),
  (28, 1371797709951181442083896433276980764673508595284381289531376933042772960879907981228929563181850752996287571591696451811533110054651092856053307083368831906314733203868607663103778670707797087329735963179834553050344590310383789598531509879913388738983227930899430328948331048201912413417722380748811699),
  (29, 4872567692119908470337490475447552496963714271430187199345803944789616861870088304453275430094661893340438235652237053607497735724762221678727162423526860116839898827580031559272423916813724407823385119747790819064628570908721289634826536352089568924035096213441527952685970277639237142674),
  (30, 17310830539263277511669075849818076188413125896439369994520257752257942921433647215216820291210064723166923185051357320870737855469164501237543478806282598280864178507138467224040655362033462721984502725071381770951699231825044941313999855422610608107750465491650123329633795),
  (31, 61502265801391466085128097627673638943050426427717433127279107974783485163612227181022057946076870868557523813104691939926020539885608792696088669273167332349852474395115351791108233410728924866204233399656461736074848175670948754205109604852775667806633197477),
  (32, 218958087070591899667618963869101398161904196405274349980511925877661866954958509676072439725164418313952918311818334965372343925435302146522653870458235737045534292413636699360417087998943297253667040657324589213351621300200140730728123700744482),
  (33, 776151804679287852557909842857416882585937529728655349973606598597620714591400057760634898392052891922836656842215655811190809332944792299506955553334655583111878982074316988697578135730653625410663348748212108402709582465347570694),
  (34, 2748261716936423942224289567597170180138438554547911874906917770708193931638126249700593771043276282843758749688141238738743073843899546801728421243736291645461487242078815913525987970363259519524396657671236694531768),
  (35, 9797836143567644974629995556332348889975020257383964119724459562161181930560480520776025683394705773599022335313405377751932031977803965937072108829721773126200353635485528291561805242482993659956597138),
  (36, 34803867619504705734697343178305088567204854777434773363138371311967390525546556877301689934663360108735104557805665148313428923826157225664910358085769377230951759151482069557478692574090),
  (37, 123653580506308084042028724747268117103734686338894544622262711302375733323322535076388784798337990183140579478348281198565692683209759240761374018975204556504950144669228712),
  (38, 439494450092408019473409972527109324938643913547743765292115369039957341211725567778358353138045082098220439863997040620340973730963684450737742300330135784172),
  (39, 1560968962450897315359804618880633777039761632024523890289035024425124106663632533233340430934607242736504664538232759562313988338132831762049104),
  (40, 5542466865837467444257003756896023402587384312060408552433354853360585796174360735448757544795711538948256541461080399658661357723),
  (41, 19718716718003391783640260605932905915231815568481224052855491778577695864266483453086966780388245498240614230363463),
  (42, 69823937556280939113892226321274919634575456877071170723979679848640066318874059116080157304040888224),
  (43, 249074941044717819217561661391067541232994145011326747356330112502570526876870812358937),
  (44, 888470207811628935658245528019800297108632626393288128857363514561349412),
  (45, 3122197346952827678048941904306627058869373943066046463034),
  (46, 11135283518270485983995022545544645707551815),
  (47, 39689240634017461915534281466),
  (48, 140750825057320)], []⟩

theorem mikiBest_ok : (designPlate (486831 / 1000000) (-13219 / 500000)).lowOk (33486474463 / 1250000000) 435704940000000000 ⟨4024193353784714005, 1333152649087925995, 3920637156039434005, 0, 0, 5483142683931703980, -11672177877370357776, -5836088938685178888, 5836088938685178888⟩ mikiBest 0 = true := by decide +kernel

def mikiPrinted : Cert := ⟨327, 289, 29, 2 ^ 260, 24759979620452481206790620674446748019704712561383207855072689056396490000000000000000000, 0, [
  (0, 29013080543640372329586732040579390572356995500450852226997360002223072167928700623935861824973158850844006014245886437693475117520928880407610330063722147172165060809675702611272194866090721943093862276572823443522775138780384031391636283521531071640616255764798471137742091313761449635765798344209325718755208928915445064409835427892762271864518517818009807176654334728318073196743029042455151587694803123096394439409333478898),
  (1, 54041073738858797270034872071034071170458561741655417209486216310827195957170241743379007055678408888220173196853251830405002931378461130906392257008131740896440956670582465093376064486845291490804737634161751969303540131408979587779070585120694707632423717355582889831340650452408095990294868730754533230794122291148454730425551360571902561592617127796546883670535270393340426938249961825538309755833061219972319113796),
  (2, 100659343858917797487294063104380054716874960328741776215818182212910048583839538960657108188512507637113776909754337071181860243566176939681245255245367923017669412999957841665419400382909486080023875600028783207294460240406389601674304398509109866760344815768089700072330503708397564891554427984134073368993593847427780603287098202667348783075480555913432896977023973274672054505914547680176260064467347552239),
  (3, 187492638563584159104701249123327535981079489605020314857025038847532213822268647920218393541823695101143911729131894290082241040284774064525262221554485754368732529612459965226029245141211171311636742165407721641342544739834419511516424880203353625341443310647729097149455068447404997976807308636314497844257041799275083209014446690639120773188980391312568169815677021546968761090556996299716571513611),
  (4, 349232253736973105193490626520155996048971059927754690604331044196525530574764114279112323108355820212629073602301089162010973055856378196330282882430355491014543881032215965938703286656493814216756000387881648470203052411579764342057766200147359208440342483253985215719324037930071576272266296091813701224919286855807325247133486063431456399544163520867726422031702636820278759787703417936584),
  (5, 650495763378167720871960048601321868689676858350177650534233160682415773549539013973092263644966556008486387558874837514590752108000113566220317845757822031322402698091400120366424632580786794270426784155522349775092028066022652492999528070118266571504510568591725358583738415603217834709390503607831947476092006630791991152105846782679620725967464841364241431069911554127761170264009),
  (6, 1211642778251632528141066522526222967896008600201788638782190458317657168283411178025150360523450279622889664341315813323938765843020157700679657274058723655525413635379060720545615996867141733585302687034714349698256502781666740085890884830012894718870964352119776332247790001609754969143984671379879090732408698910050091217239144663337614866320171972464859654035371939152176),
  (7, 2256860543511123448873062660035161241695300862568968234178033579621056086847687945656196807574271557512586287953162433005969744273381710085430499146254171703434832949034130331953774832103179295262859795522084370772498973913429827330377091252537789996955609520186603796039169489964159405823442882179520145828641732427600126049178455067520778514624982196199364300776885),
  (8, 4203730343861735330658150203591512966333517548756614763621303401180414232917715317873563136061929836274584671885268299774071623528805668278616528265420942488834260233379982589537348013539744654205988971796368404274029964503675127415370643498811790113699695052109356049739473455727832571244144642665456589020682075323293615071824995894917140197939406282352188),
  (9, 7830057933669044320766162506475137483949805700698149881551607327872308973298408202028492777187279120585261979165627857916044719741315391339885284656818652555163534557605988732894858686896988009604640757880921067717964417356213207005794402604503041615897960614346971070209077399642879983768825219067053961692972549048203048799716768599157382432158278),
  (10, 14584619428346016110416804452380421541537727603126596438794596731422193852167092383014392190746685906340230152517065156051899194724751220492762578970433234222201635242651104541770574195078248435202677532951850489680812348428940870815882910973214392303200393726004570032081657342539020237166906983400529339026745885690467964729237475388778865),
  (11, 27165970631588280406625577159934531043353914475304254216690727940755075824532949122737994889968844542411568363717532092895806789333547020598919848213721771573507695668131251388810254856302875658651945399074606908511720445243498664601788340424832865950944064414653518767643350777531935236955382253048631995252119021347412531288010675),
  (12, 50600563421078548592749195471284037536669363221720334546064451226277075418458684558454353843543069668867617489808092595756422659152031261711303312746210913111911876646378503270856255469776142822325908375617864157622581250496237902687842357360767320770762850745869455217427058677636055717875954749918305055706572865233274810),
  (13, 94250894004625358791554710774280200780684804956839111719400531113483352777153255484290718944337025525753300282878716450798675738892779748312344633119202772705375772233101853165546646994175571117847507561741812126883674662957409472202552024776090529842668035189183270026862421661744379582990415892757339704504359785),
  (14, 175555970528396514787455839903784978958523342591807628978472108289666378623099599547151803903184676350382543443937407489009481379663925696870856917881731467155975812860992615623145755431954696416832563323528603548837429328844250139268502362881909985664174004406080028086018258475082707494485071435069593023),
  (15, 326998476923250620788800864569313692419224579624620019152014327677450487752762559032460926107057644117896108233578608657144995497513477824874484102085528293872661915156492669417745410687364708405567137900522533194282965378652377660412693740001714647191103310524780823602713136245339423135577064820),
  (16, 609082126847003811576991996222532347704190093603017024481048248502572287456019387035831795572629357391076132010929461829680034069188939737055664987977657991893816394515164313586611570288392882087995964101565814744695725024749140876814639452913584442435939121171257393730634305554944480687),
  (17, 1134503869054900424943639105695491478545561937713797315341554000193790375088538551152116834033355374160193828306861203480623143687873076502744103731204339381450019906092624078163572557387358880862879789904605153578687405020645756364315251707648522854028517904208010499243603025522),
  (18, 2113211695547942663056001700707512958414271201763953993055297623825628227788050639504932445374742393678543548941703086736689383502342187762124581211697627224076346991959411144837346598468404920327934029929482219532691675917032486629333500404032297799013816565685198027134),
  (19, 3936101019805407498837560234680457513169403403505696658323764208170318130028824087877766267865330339457990487312840805927671977236560066341906961671283057120211498243688792410449620661741247538307758634571388095453497697652751354443436910103915161086184503820994),
  (20, 7338678939225867990090283398120696349976012322031079956728893894954275204609055735781644210538354954774620502442215310536648302983791180193268338456373497519528766913665450657679521289347129497014888573338360931767344186324784161072411216592749196161519),
  (21, 13656107116169025454076838965534879149348647936993745312220493480510033688176584659010620517118064051196074847603358372333080881443887991204865442101863899378234133649350000607296539477333497983896424557200759821530655526520400682276117992432060),
  (22, 25436305711360433939351887187552593383735351367021361070524553814058387869333241023717731666101558459363199779181490096644877393739883647967511801158955014957169677596167330907656495537466664264969174807775155799332484879541702271557606),
  (23, 47379352599297273057282677250395623491094937055951609891770133810870880898508028719648024399517728980972704719497925792615050665105557210247112578195425567903627450276560625156403990906113590249526056830854943432387233195069192),
  (24, 88247402261873667680691673699840471697661660484322063459168283883548097922153187390359311031440009596843125846438603448195151810247858263133876834195446132169785147578337470173866998401749218523326245903803290598428719),
  (25, 164380203736550021606564109174940921176180121284801944987475453578881195769060250026232904551126965781497051136169779883806335290333138767663337655196424278906073091888557386955143763997267614398060806468291521),
  (26, 306190433056423330422354419054208928429787739574011648618567011420107609676699955078458144914833109030102690341696101996461655698507747201965174364981720537510920900092344369758399983341335638162378795),
  (27, 570305052770397518091833798540054947513379374898924573362703473308100712212504741443321350289714210565982653581942393184919446689623981294001346858441633845852800704402946945961185917283367750),
  (28, 1062460575237228557015652276469966095421321140355595092802779414121620733071158336399354183939634484464506957087634370829534379720759887820923127750042758152853881576301768441488956931),
  (29, 1978610945142961388700766857326324284461386288016829364653843413517139418771654406694274146579789539610328632550756282626691164354740499578960097155681789750061735114296234363),
  (30, 3685454170605977638551008204635830672646805787623997696504685517163910640624015555819377460849293924827057580695450690095974059360642811161992960880438236823384984541),
  (31, 6864866618738642909270239111583366461546246356629049724247492346909907411858928417735632435878011092084872535333520143053500900534341267329848328693467939675),
  (32, 12811110044584735642248224005239480376953434238033455059393213988255380587587175823533784435100405986779803359651191464727285759781097230841934887267),
  (33, 23814038157605559510831582942689767150604678612157903771132081664459281328190764423604986665388979347816967844798417269227043334690527584813),
  (34, 44223217009596161456082408630575809309214270565528964130902722142470876514303463138918764502090150538397079824069430941151397795880),
  (35, 82632512480543308139683436972459090780331300590469392005877105228810211387856753294407072759032519215388040289354749158631),
  (36, 153895688545505781310967844280799777909478185355069613656189465796712682156921871255053861120447403216382674427214),
  (37, 286664436159790226416368336039014236964705320455007691228738047366156769212085671461110407925938028055756),
  (38, 534143014781203252585641152802914420827342624300129702055376365698726123826369090470892698192595),
  (39, 994691750305224244984445558344788871257537778290067745196590593502720341064838902387568),
  (40, 1851988212068576747207698803180923356707971650428337244345254056226107711344710),
  (41, 3452489875191599413584635564527237996887539972438511603737002532421157),
  (42, 6425750821676228058064170910602363602626241377476832163740977),
  (43, 11985054725080444021399716434085676463629646173429127),
  (44, 22348802481295846579130353972915054024254763),
  (45, 41492840879639648568173070040780763),
  (46, 76915088829970050795487441),
  (47, 144164325456065626),
  (48, 269600419)], []⟩

theorem mikiPrinted_ok : (designPlate (487 / 1000) (-13 / 500)).lowOk (267891 / 10000) 87140988000000 ⟨804927013400027, 266545782055973, 784208584088027, 0, 0, 1096289545739892, -2334428641630800, -1167214320815400, 1167214320815400⟩ mikiPrinted 0 = true := by decide +kernel

def mikiLeft : ℕ := 1653205353940456673733472251149048541540924862895267817170965505226695673968932384303359386698017960142569758805907772288985418551415701441378465590622586242787564869414026595499882745124801454477835369314413317135374776228674549550207397778263478058987996457441088149180725818138880484208656322370882333859226725469373844394078091665675995876887858546581395485586237861008725946760480380290394302890686732474881835772821622032625137879468689425982679381031987104995767093702870344327303167335497951523911545328772615043297829349281067512795324249173958616228705801298956274945552306210707825803774838955431688599445101810475284555502650166963124918981765735170321645479608924627

theorem mikiLeft_0 : (designPlate (0) (0)).formOk (33486474463 / 1250000000) 54463117500000000 ⟨499749054868437500, 163446933131562500, 499749054868437500, 0, 0, 672604243473750000, -1459022234671294722, -729511117335647361, 729511117335647361⟩ 387 46 mikiLeft (-67247063574903854383876358156214357921959586772337226827365523348894543681635174777230030550170719347323924542881050489600) = true := by
  decide +kernel

theorem mikiLeft_1 : (designPlate (1) (0)).formOk (33486474463 / 1250000000) 54463117500000000 ⟨513043734868437500, 163446933131562500, 486454374868437500, 0, 0, 672604243473750000, -1459022234671294722, -729511117335647361, 729511117335647361⟩ 387 46 mikiLeft (67234513674039305560311603969498451577530093975112110627621169696851677214980889222769969449829280652676075457118949510400) = true := by
  decide +kernel

theorem mikiLeft_2 : (designPlate (0) (1)).formOk (33486474463 / 1250000000) 54463117500000000 ⟨620679080000000000, 42516908000000000, 620679080000000000, 0, 0, 188884142947500000, -1459022234671294722, -729511117335647361, 729511117335647361⟩ 387 46 mikiLeft (-134470885162373249510809386659634331026953885231734426087487184552194286115939072318249594707809813920438506659892195489600) = true := by
  decide +kernel

def mikiRight : ℕ := 1653204504164125573194490025689502095602155782196170113013361449712146017678952221401875361754862390883145293800278448045570346054833076977869826594039357688156009888629804237290142739878426904908742311850392062230470939887591978295922324799850856731819239342168486209805131261913229280040668633546819874934666606697913087709312632275218479004218780565370733507340941662937488888471325978585376605028503693087865791010506175851352203104492292752895393749450613485141258520785485894197882793571726118415269564239409626210919777598729134787891988887691708258673333849390610314305976804893762043956711789360870432825838232893085431597159439533299076358164091284146231413770845851166

theorem mikiRight_0 : (designPlate (0) (0)).formOk (33486474463 / 1250000000) 54463117500000000 ⟨499749054868437500, 163446933131562500, 499749054868437500, 0, 0, 672604243473750000, -1459022234671294722, -729511117335647361, 729511117335647361⟩ 387 46 mikiRight (-67248798486948212576129539962020319786247310857831975581542750582052815421780149913496377995996886595725367994900786313876) = true := by
  decide +kernel

theorem mikiRight_1 : (designPlate (1) (0)).formOk (33486474463 / 1250000000) 54463117500000000 ⟨513043734868437500, 163446933131562500, 486454374868437500, 0, 0, 672604243473750000, -1459022234671294722, -729511117335647361, 729511117335647361⟩ 387 46 mikiRight (67234447375537313856222883596558991365003904312547410360535586176150685702381066086503622004003113404274632005099213686124) = true := by
  decide +kernel

theorem mikiRight_2 : (designPlate (0) (1)).formOk (33486474463 / 1250000000) 54463117500000000 ⟨620679080000000000, 42516908000000000, 620679080000000000, 0, 0, 188884142947500000, -1459022234671294722, -729511117335647361, 729511117335647361⟩ 387 46 mikiRight (-134507516028815689843457046811853484412886356684894768990016976775059658864245906469271795196951371214909034436612482563876) = true := by
  decide +kernel

def natBest : Cert := ⟨357, 299, 49, 2 ^ 250, 47063539997368678656229787593287729357937518161886211452065849643076960000000000000000000000, 0, [
  (0, 296476034789978660768045811551082606540034103306529151065389325635270227425731493831438584207411004417053715331329553459695630222517489155540943088293790172192058570537234002335896111284828713707364966733626728946860779313730746550624210398935947557629256616321610328506975848872339977376424878162585168473544363490812918404306658072161860762680207233066765233720757028860384275313225077753934598934517040727230052316880468405518038201965227288104847385605180895686625532987692200686143914422910604841997891514070552488126925297682438018146079621064099548100881806704218693555091510478062758580827570100875917222002882054277747545636741029646757944903615092920455347414210992425524661574579593132694789002031767164931821126),
  (1, 526647232117445193409902891003828895826249307011098379166095152533113980954005295543109682312296734382523971140929492413277355606946431187740428221227074644701325853148308334821308906825233228175546333463782443966766427079191342125202349833614266864571803901455670428640416930007176175478074044610878145068858643008628599091969639245022351951877318623435908373613043507361045895529648997745242454322235782608567049954264766708582992654844372327584991555985328907448204476892241633457039328293385396228133722800225386970395499513524134367952368624212933689017018396298638543346283290283942586315210104017540679021905186046792501866015016575170866009018377642796659423899902567183861420373459864224088075325608),
  (2, 935513412723035019897648984617129201215578339320974484334128278343303685733909872267428089131685337034347986568380215312283630891958863153087263639274704517538347534590264128172694706806980178018411043499882928032491894640341946782662511943852663102685038045226362463727066530471201844851668684561787203596758156070839917058541659703468729480425263698641230989997225862268211958064966314961418825137192469575344373036192568111938075323437346480855648340239553099168539754426321635503137252415245053869182970070029374191874716667927672468398349921042673115456894667545858105296023729391456575880047996074342442161451074880676287417779620920510790259700503909753651658562032095584440087107388950),
  (3, 1661805649041232548586409096133439080516997313667414609622114124830900446976595703083440172654557430992291220960730795952083649763046004834067493645487868678980145001909114360102891966485805576731176277309533009999374130232995180539796721653340498152831753498891438753467318158586670115676192160988163960397046933808697653157225701277402719430149907345959848395505173481951862067454156629726890748198699021460471608512550443242166735407012070277463038803573754287683523839301610225463021431769709319890358214824949648087898714313617115515746954537706323256000506207351209212343917802874426958031581497449689468814741705257591127950611794765629860722915474202724955431095534080390),
  (4, 2951959830428365713903831661705792797997455980527474056924067235795839620096706751232744943277732529538133160694723190720676946131872279737743470366817273752351983695522691825945452951260732271115456053836624410779983331464375952116101096052665793221638561946624821351691427979103128253095637814416854216700952404556587282317679302658277825890474642928404754458393133836034306222334663705560227038977379788785144886954948237144054730909977364759114743584105610624369098548586043765744820269717358441619884760706514382851014937416880044851801512311811830415531468970886787630474888906070967954477989655622513062583460603104503015207053291290706594878595773683817393),
  (5, 5243734034416231029325373323689861134506628524802838699024340548852477930269178953950772636143775659324243248061623164173214384996604621017829821131264234124083130166886493885080205369950313073743929429132003572313696887623910943051362815416005000576057006229173018461053348287330502161069706233403983607778670880326941265115574197244114100568020489896512170834164954084894683324398993340928253082761051736077266518498197565812697347917937714339067189536794633192906648994496786374594866494712919880087642291190620920076981051919526663633133035959660482484963196327347117138698347214061373060737276717304921466824860121539278478354414742848619788574),
  (6, 9314742816031140345468083772022291694459689858836595098211469243758525369737062778253951187224003510543900975967119612323300756144271342265438013973074082402675868196126377902590376850695534350971102192033199115193924726278570867939081692068374302342842901342349344303060683427775187618631303405628739084406706823616775199444211409235941004852525514835614807996314371895201679222403379835908866084147418837645757835832759119432608616062929269942639364022972616756617399910153760552777553132140937304837857498698725615304590738750211630065623580657989293466013195450768762712622534277972254495053005140104828494218303247863119726906844),
  (7, 16546307108511265130111815885567046703492070951633854566529658647337664536069224358268228036237707653100238512763135932372804374512144201957964133924864035041465687245587670214901050170336630238954927051808678870015199421528048394841080133045525325736413799059051187510578672361358514280204436828203639323321526207158864559594738812645386638351677103841943340600255594050602510977527729032719368047349947085680892048732889306229762424716128780747954413051458589314489001106819512043696047443741759015066633917638199591911182075238712966919371570145198199192314449552334377959777787939022023822703442672124804214145208027),
  (8, 29392145799020968031299744690384739526742078921788445041104968864220951260913537975959691614913729390501797150262775152866604899453709230315278771142050328645394569944619910070616523345375934063417982400543173253406152679081702076419709332294169765264820921190212699415151468516540189435561253579716031103347215867122934927150660700342365512345060862426655262207552903313091978044624702006135693412779976319930503640978182089082609987984261369031348899512835062763869100827989889639423714113233323299110171074935679607041539509004730731134530441565409046775327798470859492762455912740394604859681871310813),
  (9, 52210939214740236080735770745748317847908877314801481334969268857941229208765211168880589580456560466540233902731932045974614158182665959183458695965272325888955009350598104774476280275030936423976093278045678529397027743343626406652412095969951280584839039624977033901429293619959332918342250025791216465189785787939320694709805635726911857164702665650576365980408355632604745120395632343757640059909791412556056963264079797945161491848090880344493313221583610115695513475175873613435811886868284034163278212732710251717048950218522387996715232985355908118741900482745936977219479822618175),
  (10, 92745258965614560652454249282336316625057430433545635635129522814319410188881695889194726555005417741277955726984814971001251436209634647879656553124872268604134182187480887028049734638289695579693129933486465681563456815335385556001027985960215851690445629082412006542650076773013802356249561829232651894920702403413040591061750125360456913915302024001684241139040742023824052900158212159585145251736971348042216361336350360426273239949072254919659965890042958889850255232490790479367982365320109255865997244502612028471484903557830693700084240118805994738146035434651630217),
  (11, 164748675085516823650618521814579360951315987963897732333737030100308036731039066838623921560379091284570229555358665156976747734628098477555219488515947849591877328912466276461351507882261443497567886921716468838170011496582065718950801750674739576840468790454442546252608122936036840070457756456626324762133498517756138994831376424512464300615876771886132438075533967303797079343530029404563060975518861203286505652519866445652487677423213198916434361869577377489931544643632395933722284429112803110109767186146462899557962305391866001799472464453822785572488),
  (12, 292652435770287453299364915818933072258040773696837057709062843891537462914412278604856825766196755162287653153652047094568337441700893441663950613080002000631385757059818412899769986616557707192738922096051105359506223457715500807602788815218523361963579457561692612697381545544103523685680581713482993713903238119283584129451366894409515093907222253043499886536648662718650645962872357618894100804249446966453764610594946979776592884455492979910704800252351131467116318210819664771644444123120018434246880219263452650256385033910655064415159593),
  (13, 519855155847692624070370676426003826012661999017504857272809537767588251203698274957888304765768259518466145842776789743606520546090022695223123961356541608796342641014069303710118253083861177239265033431517870665967177097852225877347144704433436579412012640028102689872068035059611005075007213716371342321502659522832871903717673153902590469606453380157431884671109776794978600951408395840235291957785875100204326174270477335470364636223323332772658349381726865324162616208595568845156876157584984836657721176850388499575316363204),
  (14, 923448261587531902830453625387725697209130747879713339229324659347645444952913598064073303655077481279694806344418686156195658233421401685863901364707673144330004505249473842340265296314792537427679517354243391255319496931334483270414823558119402795596312607991532878255983859717172775060084861408493143726280352833625902268018168065799463812423099389422647169768216703796599695039076674448656103679294175600289975290157999611241235868225107092691284623739555547019659054579481488642596650887875840248463067339098022),
  (15, 1640373635303283888529885859575553418941014816482542326877738492835830536914335445425555001045374820395385479866503329163232257693684484506865474564473153868817112193084068411055154151758033756862676500969946268427673456004706534811534859444725990752488989995879435926337861041702990279892988189759772189975455405369385437240882395848267318427433064683776204397024519325566528775933918382081575963236246702622918768983008977778672951753951130323221339476747423648074813443489008579890600992928360201071),
  (16, 2913888926242840484323945310719412099903647500560056497900698564133439336382028124020900824254895677104800874329376690919576523089659842629030312793956683506594816949884834892965374690321310748998004531957088938690331656949815946856387029471796605274715574543214665359565690092319162406313455253040735390032229388845882152931692213303666103004317674402180944517455670889690672025448859939098477085644624870481273797039652318490173542347499581726597999689345190726189384040978474179914216),
  (17, 5176106523384121666091325438814278213369248004179965635788443154096174407831576559862288804606044547362546463950112558850527718254131804720272976435218724190576791694194576614531163775555839401775409802064137928509082426840714988141671280798986355792640097461634274019573903287055539638923748266132438512331876074916273016846572896655027322736871538243238640212778208297695788659975152627310099377086901327201923925779663001878877453113101980822241374630441936464513979413),
  (18, 9194753694503354951387266370658776549236689194167045293721193801974258344293676913406478443873962737464505805671367211851343876710206192071893580984062280618349204831291049895518166767969797990738371491199394568894191303057818541263727861716860915846754277344699759135737943711822232196524515553652248772422428051978798701480825267717447844882481855156255231346747503933377026969677945175527872961497777017309535223007279967379062634145921633857297783117856),
  (19, 16332912236545776324890416203580098545385224983008985797548449941685154962360672248693682093770721719735629874644094391052782687675979563618954658631690735029115716583350146354708027893048567173275220494883034664466015081495807991760277896141856730144712908682466211407653182548730968077939542212519051565934522450600729687636593408907119474772777656476789812195264239490896486433309687509800319395447655625580643187309558353513078068883764045),
  (20, 29039758462200125357133015150355758331049699655267894963454546596621682200077216242814820408827976755849682656289270627600102306460498156072073585523769865919904386299053197435147617090035868970994760861796883042558589994634718521728067031388045202816988319006386248857936354093552207021833776536591866657230053960242469198384045384937776985252497051584339650798638140358382031031820870616414004182914440981302000627983533352012),
  (21, 51537625705142811954230124687685463982270065953398376832311017740466338494524621158142750642474997472217988120607042867681701022785198751253070031802517427921861620383470255632876191773516501337183851845868361678230694820479888023664859080358678169053181499584016199557645541329574292989271491434905538245756531686472450963611319921348554519746714296555249948218222049768371653734016771031061870328679620824275845),
  (22, 91548695413725900679611867175078993837919067268203035729421893007215035596648221391399284833266630212917936451944276820943881512992023214285284811231755903207639463018069901667912028842139215506786087164150316786117018394665483518862966091630233288569559604586652925718726684973585159648750513422798161301407868780409209758907052996379789927980744426202379645744149787211837430424496362836181520889),
  (23, 162624664122251669082868806991788277297056838980756637198442270975144816590282338654255783559173960535646029820259567163962309497379873919946271798043805923792247653140103198893800549523884517869868986782958564773471611089108480236904718571186952202713137940162607691493782027210761309506915925477633239685361586809158907414370892292805176051163173166685831575990016467092105258170863),
  (24, 288868631679353421711526307034738133679397934770861624201493484357350622259561549632954495172370765146186040495287041046073234775366457628054527452885191484174051968162669760779277822054742210892007740984901790572573403819775432778627223097223344352747825834633176692258950790415794817178215618979630534460797181537079667157549682576023718279423812933214410198147305137),
  (25, 513153407393312658831171507598295028267816843610300626820454035148541418588144908893363269530087076460741418256111026904040104033326794475928896866734371834603918857278245458500628719026590116667320309663525264853869127164767764083506253448619784339782680214256887848106422369149388372119800243087348578490284589704652430133353549904294166821478190903935),
  (26, 911568379913664004339478467513140524376746847974471886937589234301234847310467849907211497709603527425904555750710896464338359467003032077965985311573761036042078166085183402755635891170764307262136507167692350578185447731181640978356118575040520447509458195339309172194695912536157151693587030937135393835190115507478514490516929346909042),
  (27, 1619218096320047252045772069490394112853939903611340764572511867786534867798491083917744658780057266520580609311179276670996921397329648369888530318360553278424069884455840770755642976360350092080479945241013445660807720802040601790650383523709192886661527433928692594187571525311752301933515317118784364799411996695875525322),
  (28, 2876790397341000232841204091298059654761204695439077305959144948443832556303347055152324925024075525993091092876547800288188142457656528166960764841645192466451169668537996337132974621145612723735323423602242367318019644199870978299336510437548138404067919777858420101419881407530940943561170222792077967666865),
  (29, 5109271152371682191971829065549445134562446485205067240024085942515370091231067900219090669243275471367080872738900224529745896848718891082987864902686144497306975779988424089264310575244948185756708103671353598788211801715525522059628928095694514058569911562941841107126904400806209161969011526),
  (30, 9075869486744669020017611652062573350875497566115247337320654416032641214797472593070990414830240591153933433054292611365906327441398410534933349765104413184220369257695037626309299885061460323382240436603591414235541443137791706894577090045526003620865802842725888536611724900106),
  (31, 16122423057294840772374975906985953032751310141089725007758053833889280247260569137521768355255486105300571853072603350883897160494616046485114484502667299240600205606539420801428231240774843692297763020986972454012382624791898706544582403068882080081345324896483041),
  (32, 28693367179610372738972765342781930844824176777873207749453128427650775130259955647591437907873565269803997655108316212575932127446580792974901279037496078296362658213960666760520155628799456085068700530921521422516387623318769104752901112434575796357),
  (33, 50866517861622493235193178875907115649705089802046101093485444156044543336490580882595070481834785840706653112457865607922484093076272059587314139086062002953611900610776812553517074681063735854300008982956974515948083090386295450142131),
  (34, 90093495888990944607843243454381821993165362201379502978433607045573268445426707197649206066728805070303138642572833013740549060924355118878354870904814818784357267103746589337299764855110092115920383630002929540219988599),
  (35, 160527616910608841033255930445749852376509936025414249347384726363135018382164538472369018444767910905936360655256324016075098839293331728521979142839536705746141762629502339558773944231782287776207675077526),
  (36, 285118048334001246268385069479785314952022760628188708849404077747989069766031137890609994315095462284706692388385296919652766731089512903854676893288907862153688672316088794827694221109644207),
  (37, 506494097267152908764888411774935533750114755172575267722350251946870144899190358467068966692339118632110178141303566037219484898566763459736405275286505173996544932102725137926),
  (38, 900039327473450928861550005404745070586745164402635237695272467139341206532067755338061579967747365494673637870157319026000417795297657297122691258061460469782932),
  (39, 1598422517473181665121089079657166943650247038925306857215747902340375320970961430408711073750161286942530083847009176779575279395820595878693969127),
  (40, 2837979212649491648869643826115426089071281549915284407500505877451819183390444765128531150658804872003365919805578590623983586823409),
  (41, 5047149288968434066622680158774972468478909533187446077738232554928555682380592463666309724385127129254580706601568299),
  (42, 8941460655025152002658222402235711705318173276735623607599430564339585092138787060020281464186310712148),
  (43, 15937013613980125678626979434332633184388103281608196074862037612952207125078939715913813),
  (44, 28412464787790931120864583260869428982387119368429459287481728521626021344),
  (45, 49986810454593886424566804120473620067336120860192126356438),
  (46, 89094463694719028609819688861260249460149582),
  (47, 158718926692316001777175258383),
  (48, 281491258736125)], []⟩

theorem natBest_ok : (designPlate (677067 / 1000000) (-41630277511 / 500000000000)).lowOk (53785616407 / 2000000000) 87140988000000000000000 ⟨797890788737150716287869, 277625014628545283712131, 769086343605758716287869, 0, 0, 1140606476030181134848524, -2343465876947495058000000, -1171732938473747529000000, 1171732938473747529000000⟩ natBest 0 = true := by decide +kernel

def natPrinted : Cert := ⟨328, 289, 31, 2 ^ 258, 24675627653686647779286380294965979507184667560561640040872478485107420000000000000000000, 0, [
  (0, 9194612228559195620104442749493006599354033584951012150612412984778639644709737722105757555811046362026990505062347361278783940997794957593222362067613792236430452279102228761383083123975262366606670857430222621311757305572218541965668757550008682446470081412448274645394544175637566313628988140320028966080923235973367170404499804679540086633409976082884192915577641296645153270171523195948042109108737405010095742415885821936258225088951026590008233996617),
  (1, 4281574966646356331233141361499673966017567359353886987367837217067666186350275632974578828583214616984341038487847240046370071388951130178475683856731101078485303886259433155601324214328772008099614042294829636097219959336704841010269199483544105210324941201569100900535288192885771101575139010903594397344670915095330695546900189875193998557236200312681981789874817017583797340801583193587476644318271592038618644837833262465078669606169626846080),
  (2, 1993763710673133065566952042979967764586940109428897028494550481935807590535970233834618166393397419584382649609778836249423632935919703858295482208703405628112919248571583940682140555260501595348110011980648360968379372523345442458691000748701212604048113932278964353041946661715034093600369462361621805350160567471706270229847641629561533590230124019962106219115341108332467564629026663329218517100323764522733737815689299640907000859259),
  (3, 928418576099506144210208227382957825710503435427740695185284354694098043505088565271945836288946403320467537545007285533313316340187513145349395158907634456216128547318058559140310565305420705551442487158338524381133604747661109374391731672186087751133193480528087704310960860575512734468098692313033403146217573172192744424824073827634584689989168387952086340571708042357503026498119930150721640791335766383659340691729743105329),
  (4, 432328589306914314725533233668169856867987399654342185326518656077840402670914330957391963215736146486641506366990409027341961508767415900865243855088200115299527371231533469391982874158693683616230133643591280526690306250869873603344292087311927576927697157006503234710446139598174726804202016409631179277442347285981950737879187607140921696943421129032823620170253798671061755360536087611360171486203958478400231202450),
  (5, 201318687436596636998249792339359343456098530280563135317768275774009705391878634191775465130492981176658732970229273354654109087579029931981963050812021859590780785560238343845222357724399028493234039189067863252133217016065145734038132359786364011575631417961195933987967979616564430694723480882055385650023941075218758193937006391533841057496622973377218261072035456971024887268608837611495924622182403441038),
  (6, 93746319150829984340001732269003681585238562096172541062239685921934494272017281234067263361274863563675863568223076065915293722509867244949162439833082959525274175260803668307480143979334637615771378603508198641144743079936846508128314304276873060190534728864962945389946509405796048580638147686628102675381312077461566639316204846807885709266754126297880156755706809159893566966360319774910860066524),
  (7, 43654031656137660304085226854776815318147913597604511800333711282319527663411514235027364463685770037759995092976121951854327685692898320510883177364547011122521267749367500573361392318732591671143830006092288483871948801825759798662466141572083849580272940962384144167906037625188903199578752237845096771722863913615059958933053669465796438369816818147151337110106067696581060071484830170393),
  (8, 20327992577169863648752321887191764692844782768564537074572272264547425818538080719610999183346693602204025796696270332704142446521857047447377573975179902777994167202993998126964122135965464297941549865786629232473226274518816974036176391869026053669844184253519071796237298713790699902084413575664174062387646272927409706634141711636019636476808391981303843387037858618616034712504),
  (9, 9465959191867086872808785125236848691871754251683380955165378872560069835262081259607659675530762928409862510783193658241729860373204700387378535931301828452142981096925977782910054020306070833566312984476472099601412128168278933661245273280266398984856769006350540929844730486905551914254000559367754404975239393244371913917638271492343699570362060163475111587767142935126),
  (10, 4407930742887354862321533786708884263351445203499580246939034607522222100540927145348478206654173856341589510109491235554025198423039986584570319512232498083908108780098875870133597416579241944573577957412983625466225764524429544987755765457294845080833664761326883145835983873273986809814293105851651861361909411934245259149649349074351063163705896721862087709113),
  (11, 2052602704096285096519409579554984468664715626975325982523632518724642269810009044874534290401969970598704942104137740497928877964404043796348434784556534326899104888031824447501598117010084017897848708111741135231703799083448408485394098793304469344313315084648971939584705872332059285552894750627946858399853720949714643484284944357139648292943703857786),
  (12, 955817617520822722706668814436990985956376244768186464218251648696438343696769995595690137650895270726961902142556884242010236864707304412652806732360193012226023295086210900959214981435308268073606617186377335864383739738855406693160668440234993672783944468173003239039931690959374258483142109804117575535907899777453916536092058283995244499294),
  (13, 445087262206162662574401504563629155026923979058948561650818050231990904673000973151702680581772074483798893245565661584762531671696949165576247923993478021713807544815729538982232793909660689798789690842745016006013016785930973365917988181926744620310837026111010440144707601393960648527619649588375143864725269239562876916610008161075),
  (14, 207259907483198988518865416501861813143704747496425436147581251994757556669664590705111301157482871372830707971506973100365821289321575598179113181092540205808221954981766245845165750471545286583536253524709060761726294035987927469493932573256230038372902156126330470843774295321397862491897873369757968273359088567373467421003),
  (15, 96512915325909381973960013647951677562918826960480408813908522537291156675258591270877504330468674758635208812511953350600392988422252166410917830354240095644192494643474027943931313834055226648712046035971155038507596603456174000972012600959569057458937698902062648675144180565607653253876991329326073703209143190176),
  (16, 44942328392485800187084920753700588238536748136384733995940661431128702771173172323178437324109171721427364755001714951975133278310290660084869605924481637106959770328023889825729867948834836929274387179334744587982270892077647000010835925963922109525027446694276423194428470589046687329893150295546176859748),
  (17, 20927902493852274855867995325252600728495147367360549473509300367366948622793762116438193981203626391485352112124327819712478871537710119424418911050483365827979922968403028198741269833776747661661858412151627006196202838559902724679730364644676350567578960162420404544927377646520207180805395535265),
  (18, 9745423890368517103503864225733515779583911127236535964774415058684079554516823591845056110523305699944170094308844062173875734567696455442979012043674879596861843640068378251694438749370197884922901437126500780641321406397129607045987850401057820626011288043709535611542758118635065667325),
  (19, 4538015452975875997335918156138887446902113644982713062886410769407591812939408704485457388992091425770097242108354040568528344989066065114225422059801794969599472662273161159307544842449034213837049539606964403167643634276551035510944316346570453263025765865958437465829239665646),
  (20, 2114602230478992523045634893190057704933292592981964841744096533815464568559620185536769067237750915264259073413232196138065920353643174643446268719244912448523617248008416002747927905177391203088147257393669245453699522942009474876949292313303250590462983777721092393317),
  (21, 984025830018727218389509016387918508215590034801803219161502147902065228771708861157649782980095255030638850611752930144795757130268569932623089333272339836418287035703418972150719285445099086695349107492646979634915177394428829543710547969476811091971378616025),
  (22, 458220835700070857046825972223990510025987354283052192398783048234486807895814288837396750510901124571489083432081480798555247906511105809539888521519194774798399781471550091246155011683447378586936272333539445407087425036720012706308398960827931525613),
  (23, 213377156287285656925469287315318349507739860568156315586373126743380602614876399668200626969007473177554560691073810543649279919937675803279041133137111499836185826126930891482003225036801489571274004656168726703615112654937777750935083792164),
  (24, 99358759386973260931687395525864888580224438438103380717036478171426342131386808738496053154201481069986701439439887650920015422571475311875155864405098237030314938729350206882571635788308723771569402469976426758817234039698748613158),
  (25, 46268825229360303885902643192739672812445596143636098338013560034386535294488943910073059759193946408668214907918472840754470684717705186621778676903817851304250616882299154496616799579633968994963801542605982075721485499992),
  (26, 21546030568645775424356402868504015623843806589747198324976497638274909090217539601146920420834666280688977371843437102979652247533894187172453496936754538546039391769194947639562168125638810453982981796943785069802),
  (27, 10032913351933829082536704189498403642841520617912432960549885650798465553228203920369201588806937240938814719387893680488499515155151175221583975433127569261777700787486314848466956575871456588054646344181),
  (28, 4672507567817113823465305965731624994512963409766585683025430209569122838286406252075702062998956554086394206863278198155670229116064948455229137937044540673686983691550056637537222375061854529101),
  (29, 2175516508901102747434924175978953600334414149147716627125970571433421884202892002400486504314117645446805818081592048237644305206649209777663148595561846565703313097149873156035637967540),
  (30, 1013052941591391599565418575447816571651609885716955185481220933878898229699118864061970572791236208958506172747926373012611465171861957995288483536363519574827234019513577883555),
  (31, 471748567671346944527933615188167458193209540842778126434065430693647534862387551965308545912031262448189075615631433479941034344004689168022201151130231368153450369744),
  (32, 219979816794794505029703492208990184185705779642694530364300775292478251689398565087412239051303126727293124483905564135343117089680423674325124419595860254441),
  (33, 102283980501707874521564789234758950768580484632684963572755184362238928815112759316775702963920134445326764163013318563636824089132136835758386924482),
  (34, 47527820283638154920201294975958193046492299289809381134863904404998247638465251343904747396970190460541455564017292464757049168479447715828),
  (35, 22181457733932851332053177967545467430415273424274860456687024698748228376935286098444989614399418916443978500349007794525094971996),
  (36, 10328110288141759268325412020854347026641149898143841025700547894490256020063875502871979775792444491386513032068138796113),
  (37, 4809558541492877745551467988395247326719805109943355116993566296377129190663052928867051265185057403249589597300),
  (38, 2240180278069286275549127764328144065750533778585731002861835541077586512548126227054282610586121395665),
  (39, 1042998981397427032418833046368740310750015231538298176088874054440716368501431419378550619619),
  (40, 485536574525597551600043701428059162356818358614144797662042216087617405637277391529),
  (41, 226237350153061188728378278137892003439923048618894842625977905261853851816),
  (42, 105279745239369036484963041830636208292933343394394489374645102856),
  (43, 49076425882640080063722864630841737241282080278954005080),
  (44, 22872104824394040367038036821383857237309137721),
  (45, 10625150101676062798133851334543288488),
  (46, 4931256003891452919473291485),
  (47, 2306398076832798768),
  (48, 1077052673)], []⟩

theorem natPrinted_ok : (designPlate (677 / 1000) (-83 / 1000)).lowOk (268927 / 10000) 174281976000000 ⟨1595879555656057, 555149200695943, 1538276366152057, 0, 0, 2280809637815772, -4686912895975200, -2343456447987600, 2343456447987600⟩ natPrinted 0 = true := by decide +kernel

def natLeft : ℕ := 1653605877184393341151790270443370444773157483698673142128044753136781833587622814233375305005840649196549674795863786758142153057439581873745886339368780896463421972547823312111831568650601755585374219472585634626214296395954684434897475990978022705152061048709647617442687638989072381342992789562280707058242094785629408246305087531847476027814759473246898708147566540112258109746766957024920699856388098792714128896636867241388162133495909534811886692188811209301810533329989943022647142248293267978111319109016747147137451980317393906285188094723470011470776418699988372571363737737843170498513695270673133619462337995640483184703439892450442564763522303698709175400415636861

theorem natLeft_0 : (designPlate (0) (0)).formOk (53785616407 / 2000000000) 87140988000000000 ⟨799598487789500000, 261515093010500000, 799598487789500000, 0, 0, 1076166789558000000, -2343465876947495058, -1171732938473747529, 1171732938473747529⟩ 388 46 natLeft (-150221334841910207778217744744228667574721526127246504662192673669250784443853927762400995781471635843894192398587512539128) = true := by
  decide +kernel

theorem natLeft_1 : (designPlate (1) (0)).formOk (53785616407 / 2000000000) 87140988000000000 ⟨820869975789500000, 261515093010500000, 778326999789500000, 0, 0, 1076166789558000000, -2343465876947495058, -1171732938473747529, 1171732938473747529⟩ 388 46 natLeft (62019985425650183072456744282033550599714253433266830346763903819273564792790424237599004218528364156105807601412487460872) = true := by
  decide +kernel

theorem natLeft_2 : (designPlate (0) (1)).formOk (53785616407 / 2000000000) 87140988000000000 ⟨993086528000000000, 68027052800000000, 993086528000000000, 0, 0, 302214628716000000, -2343465876947495058, -1171732938473747529, 1171732938473747529⟩ 388 46 natLeft (-228526663504553686216983295246184858951477949423128043454078834884145636571252333306476956063490287725625193560451109539128) = true := by
  decide +kernel

def natRight : ℕ := 1653604036842328696985512492996322150727070939423872489833328772988627296180824311683025565978121484382571267490568169195625503428911486473282602529944374517838909369776092951599392565205070154446436902993807760147907892153859952860002080211336144071266255982383947298110725445064979250284412328391757144050967624539340275668112001144831226266392838372964151648727260957375047923687652404410428452470573744847870653803079073611764573936610340540805283285117471919676028932826971052260345696318860653384226677788020732661321099989006810723837361180995304135843337023515967675493351325872505803968098373223962236955479207073177907094412690677809329183262720479089602724923207260725

theorem natRight_0 : (designPlate (0) (0)).formOk (53785616407 / 2000000000) 87140988000000000 ⟨799598487789500000, 261515093010500000, 799598487789500000, 0, 0, 1076166789558000000, -2343465876947495058, -1171732938473747529, 1171732938473747529⟩ 388 46 natRight (-150236939257551242780884218219437925497701462639065701585220141674211930781577432577140621116187620993590640706805415252860) = true := by
  decide +kernel

theorem natRight_1 : (designPlate (1) (0)).formOk (53785616407 / 2000000000) 87140988000000000 ⟨820869975789500000, 261515093010500000, 778326999789500000, 0, 0, 1076166789558000000, -2343465876947495058, -1171732938473747529, 1171732938473747529⟩ 388 46 natRight (62011753171216468582404670381515917937878956409432111064601626837184687568279540222859378883812379006409359293194584747140) = true := by
  decide +kernel

theorem natRight_2 : (designPlate (0) (1)).formOk (53785616407 / 2000000000) 87140988000000000 ⟨993086528000000000, 68027052800000000, 993086528000000000, 0, 0, 302214628716000000, -2343465876947495058, -1171732938473747529, 1171732938473747529⟩ 388 46 natRight (-228669734871668316549225037515086893570460367970761651646174239951012013886883785647192207920255994792322168194602385252860) = true := by
  decide +kernel

end Composipy
