/-!
Generated by tools/gen_moments.py; checked in Lemmas/TableCheck.lean.
-/

namespace Composipy

/-- Common denominators of the first 30 shape functions. -/
def shapeDen : List Nat := [4, 8, 4, 8, 8, 8, 48, 16, 128, 384, 256, 256, 3072, 1024, 2048, 6144, 32768, 32768, 196608, 65536, 262144, 786432, 524288, 524288, 12582912, 4194304, 8388608, 25165824, 33554432, 33554432]

/-- Coefficients times the common denominator, lowest degree first. -/
def shapeInt : List (List Int) := [
  [2, -3, 0, 1],
  [1, -1, -1, 1],
  [2, 3, 0, -1],
  [-1, -1, 1, 1],
  [1, 0, -2, 0, 1],
  [0, 1, 0, -2, 0, 1],
  [-1, 0, 9, 0, -15, 0, 7],
  [0, -1, 0, 5, 0, -7, 0, 3],
  [1, 0, -20, 0, 70, 0, -84, 0, 33],
  [0, 15, 0, -140, 0, 378, 0, -396, 0, 143],
  [-1, 0, 35, 0, -210, 0, 462, 0, -429, 0, 143],
  [0, -7, 0, 105, 0, -462, 0, 858, 0, -715, 0, 221],
  [7, 0, -378, 0, 3465, 0, -12012, 0, 19305, 0, -14586, 0, 4199],
  [0, 21, 0, -462, 0, 3003, 0, -8580, 0, 12155, 0, -8398, 0, 2261],
  [-3, 0, 231, 0, -3003, 0, 15015, 0, -36465, 0, 46189, 0, -29393, 0, 7429],
  [0, -99, 0, 3003, 0, -27027, 0, 109395, 0, -230945, 0, 264537, 0, -156009, 0, 37145],
  [33, 0, -3432, 0, 60060, 0, -408408, 0, 1385670, 0, -2586584, 0, 2704156, 0, -1485800, 0, 334305],
  [0, 429, 0, -17160, 0, 204204, 0, -1108536, 0, 3233230, 0, -5408312, 0, 5200300, 0, -2674440, 0, 570285],
  [-143, 0, 19305, 0, -437580, 0, 3879876, 0, -17459442, 0, 44618574, 0, -67603900, 0, 60174900, 0, -29084535, 0, 5892945],
  [0, -715, 0, 36465, 0, -554268, 0, 3879876, 0, -14872858, 0, 33801950, 0, -46802700, 0, 38779380, 0, -17678835, 0, 3411705],
  [143, 0, -24310, 0, 692835, 0, -7759752, 0, 44618574, 0, -148728580, 0, 304217550, 0, -387793800, 0, 300540195, 0, -129644790, 0, 23881935],
  [0, 7293, 0, -461890, 0, 8729721, 0, -76488984, 0, 371821450, 0, -1095183180, 0, 2035917450, 0, -2404321560, 0, 1750204665, 0, -716458050, 0, 126233085],
  [-221, 0, 46189, 0, -1616615, 0, 22309287, 0, -159352050, 0, 669278610, 0, -1764461790, 0, 3005401950, 0, -3305942145, 0, 2268783825, 0, -883631595, 0, 149184555],
  [0, -4199, 0, 323323, 0, -7436429, 0, 79676025, 0, -478056150, 0, 1764461790, 0, -4207562730, 0, 6611884290, 0, -6806351475, 0, 4418157975, 0, -1641030105, 0, 265937685],
  [4199, 0, -1058148, 0, 44618574, 0, -743642900, 0, 6453758025, 0, -33272708040, 0, 109396630980, 0, -238027834440, 0, 347123925225, 0, -335780006100, 0, 206769793230, 0, -73398801060, 0, 11435320455],
  [0, 29393, 0, -2704156, 0, 74364290, 0, -956112300, 0, 6931814175, 0, -31256180280, 0, 92566380060, 0, -185132760120, 0, 251835004575, 0, -229744214700, 0, 134564468610, 0, -45741281820, 0, 6861192273],
  [-2261, 0, 676039, 0, -33801950, 0, 669278610, 0, -6931814175, 0, 42977247885, 0, -171908991540, 0, 462831900300, 0, -856239015555, 0, 1091285019825, 0, -941951280270, 0, 526024740930, 0, -171529806825, 0, 24805848987],
  [0, -156009, 0, 16900975, 0, -547591590, 0, 8318177010, 0, -71628746475, 0, 386795230965, 0, -1388495700900, 0, 3424956062220, 0, -5892939107055, 0, 7064634602025, 0, -5786272150230, 0, 3087536522850, 0, -967428110493, 0, 135054066707],
  [7429, 0, -2600150, 0, 152108775, 0, -3528923580, 0, 42977247885, 0, -315166484490, 0, 1504203675975, 0, -4892794374600, 0, 11131107202215, 0, -17897074325130, 0, 20251952525805, 0, -15780742227900, 0, 8061900920775, 0, -2430973200726, 0, 327988447717],
  [0, 185725, 0, -23401350, 0, 882230895, 0, -15628090140, 0, 157583242245, 0, -1002802450650, 0, 4281195077775, 0, -12721265373960, 0, 26845611487695, 0, -40503905051610, 0, 43397041126725, 0, -32247603683100, 0, 15801325804719, 0, -4591838268038, 0, 599427163069]]

/-- Scaled moments of the derivatives of order 0. -/
def shapeMom0 : List (List Int) := [
  [73891680256426391719460100, -29556672102570556687784040, 24630560085475463906486700, -16889526915754603821590880, 14778336051285278343892020, -11728838135940697098327000, 10555954322346627388494300, -8956567303809259602358800, 8210186695158487968828900, -7234150514615171217289800, 6717425477856944701769100, -6062907097963191115442880, 5683975404340491670727700, -5215883312218333533138360, 4926112017095092781297340, -4575336238788011871174000, 4346569426848611277615300, -4074227984063610570997800, 3889035802969810090497900, -3671636286033609526432800, 3518651440782209129498100, -3341189020290584669053848, 3212681750279408335628700, -3065136366192502175029456, 2955667210257055668778404, -2831098860399478609941000, 2736728898386162656276300, -2630182167080805934396800, 2547988974359530748946900, -2455832970399313116775800],
  [24630560085475463906486700, -4926112017095092781297340, 4926112017095092781297340, -2111190864469325477698860, 2111190864469325477698860, -1172883813594069709832700, 1172883813594069709832700, -746380608650771633529900, 746380608650771633529900, -516725036758226515520700, 516725036758226515520700, -378931693622699444715180, 378931693622699444715180, -289771295123240751841020, 289771295123240751841020, -228766811939400593558700, 228766811939400593558700, -185192181093800480499900, 185192181093800480499900, -152984845251400396934700, 152984845251400396934700, -128507270011176333425148, 128507270011176333425148, -109469155935446506251052, 109469155935446506251052, -94369962013315953664700, 94369962013315953664700, -82193192721275185449900, 82193192721275185449900, -72230381482332738728700],
  [73891680256426391719460100, 29556672102570556687784040, 24630560085475463906486700, 16889526915754603821590880, 14778336051285278343892020, 11728838135940697098327000, 10555954322346627388494300, 8956567303809259602358800, 8210186695158487968828900, 7234150514615171217289800, 6717425477856944701769100, 6062907097963191115442880, 5683975404340491670727700, 5215883312218333533138360, 4926112017095092781297340, 4575336238788011871174000, 4346569426848611277615300, 4074227984063610570997800, 3889035802969810090497900, 3671636286033609526432800, 3518651440782209129498100, 3341189020290584669053848, 3212681750279408335628700, 3065136366192502175029456, 2955667210257055668778404, 2831098860399478609941000, 2736728898386162656276300, 2630182167080805934396800, 2547988974359530748946900, 2455832970399313116775800],
  [-24630560085475463906486700, -4926112017095092781297340, -4926112017095092781297340, -2111190864469325477698860, -2111190864469325477698860, -1172883813594069709832700, -1172883813594069709832700, -746380608650771633529900, -746380608650771633529900, -516725036758226515520700, -516725036758226515520700, -378931693622699444715180, -378931693622699444715180, -289771295123240751841020, -289771295123240751841020, -228766811939400593558700, -228766811939400593558700, -185192181093800480499900, -185192181093800480499900, -152984845251400396934700, -152984845251400396934700, -128507270011176333425148, -128507270011176333425148, -109469155935446506251052, -109469155935446506251052, -94369962013315953664700, -94369962013315953664700, -82193192721275185449900, -82193192721275185449900, -72230381482332738728700],
  [19704448068380371125189360, 0, 2814921152625767303598480, 0, 938307050875255767866160, 0, 426503204943298076302800, 0, 229655571892545118009200, 0, 137793343135527070805520, 0, 89160398499458692874160, 0, 61004483183840158282320, 0, 43574630845600113058800, 0, 32207335842400083565200, 0, 24477575240224063509552, 0, 19038114075729827174096, 0, 15099193922130552586352, 0, 12176769292040768214800, 0, 9962811238942446721200, 0],
  [0, 2814921152625767303598480, 0, 938307050875255767866160, 0, 426503204943298076302800, 0, 229655571892545118009200, 0, 137793343135527070805520, 0, 89160398499458692874160, 0, 61004483183840158282320, 0, 43574630845600113058800, 0, 32207335842400083565200, 0, 24477575240224063509552, 0, 19038114075729827174096, 0, 15099193922130552586352, 0, 12176769292040768214800, 0, 9962811238942446721200, 0, 8254900740838027283280],
  [0, 0, 3753228203501023071464640, 0, 2047215383727830766253440, 0, 1181085798304517749761600, 0, 734897830056144377629440, 0, 486329446360683779313600, 0, 337870983787422415102080, 0, 244017932735360633129280, 0, 181876720051200471897600, 0, 139135690839168361001664, 0, 108789223289884726709120, 0, 86656243379184040930368, 0, 70138191122154824917248, 0, 57562909380556358833600, 0, 47821493946923744261760, 0],
  [0, 0, 0, 341202563954638461042240, 0, 262463510734337277724800, 0, 183724457514036094407360, 0, 129687852362849007816960, 0, 93853051052061781972800, 0, 69719409352960180894080, 0, 53047376681600137636800, 0, 41225389878272106963456, 0, 32636766986965418012736, 0, 26259467690661830584960, 0, 21431113953991752058048, 0, 17711664424786571948800, 0, 14801890983571635128640, 0, 12493903823971068320640],
  [0, 0, 0, 0, 839883234349879288719360, 0, 839883234349879288719360, 0, 691668545935194708357120, 0, 546054115211995822387200, 0, 429042519095139574732800, 0, 339503210762240880875520, 0, 271602568609792704700416, 0, 219868746017451237138432, 0, 180064921307395409725440, 0, 149086010114725231708160, 0, 124690117550497466519552, 0, 105257891438731627581440, 0, 89611448116758007265280, 0],
  [0, 0, 0, 0, 0, 839883234349879288719360, 0, 1037502818902792062535680, 0, 982897407381592480296960, 0, 858085038190279149465600, 0, 727506880204801887590400, 0, 611105779372033585575936, 0, 513027074040719553323008, 0, 432155811137748983341056, 0, 365938388463416477829120, 0, 311725293876243666298880, 0, 267193109036780285399040, 0, 230429438014520590110720, 0, 199902461183537093130240],
  [0, 0, 0, 0, 0, 0, 197619584552912773816320, 0, 291228861446397771939840, 0, 312030922978283327078400, 0, 298464361109662312857600, 0, 271602568609792704700416, 0, 241424505430926848622592, 0, 212287065120297746202624, 0, 185873467156021068103680, 0, 162639283761518434590720, 0, 142502991486282818879488, 0, 125171546575788962529280, 0, 110291013066779085864960, 0],
  [0, 0, 0, 0, 0, 0, 0, 72807215361599442984960, 0, 124812369191313330831360, 0, 149232180554831156428800, 0, 155201467777024402685952, 0, 150890315894329280389120, 0, 141524710080198497468416, 0, 130111427009214747672576, 0, 118283115462922497884160, 0, 106877243614712114159616, 0, 96285805058299201945600, 0, 86657224552469281751040, 0, 78010716559429109514240],
  [0, 0, 0, 0, 0, 0, 0, 0, 332832984510168882216960, 0, 651194969693808682598400, 0, 859577359995827461029888, 0, 965698021723707394490368, 0, 998997953507283511541760, 0, 986107657332995982360576, 0, 946264923703379983073280, 0, 892192642348901126897664, 0, 831909355703705104809984, 0, 770286440466393615564800, 0, 710166523161699479715840, 0],
  [0, 0, 0, 0, 0, 0, 0, 0, 0, 43412997979587245506560, 0, 95508595555091940114432, 0, 137956860246243913498624, 0, 166499658917880585256960, 0, 182612529135739996733440, 0, 189252984740675996614656, 0, 189252984740675996614656, 0, 184868745711934467735552, 0, 177758409338398526668800, 0, 169087267419452257075200, 0, 159649838540227014819840],
  [0, 0, 0, 0, 0, 0, 0, 0, 0, 0, 34730398383669796405248, 0, 84896529382303946768384, 0, 133199727134304468205568, 0, 171870615657167055749120, 0, 199213668148079996436480, 0, 216289125417915424702464, 0, 225057603475398482460672, 0, 227530763953150114136064, 0, 225449689892603009433600, 0, 220206673848588985958400, 0],
  [0, 0, 0, 0, 0, 0, 0, 0, 0, 0, 0, 42448264691151973384192, 0, 114171194686546687033344, 0, 193354442614312937717760, 0, 265618224197439995248640, 0, 324433688126873137053696, 0, 368276078414288425844736, 0, 398178836918012699738112, 0, 416214812109420940492800, 0, 424684299565135901491200, 0, 425732902773938706186240],
  [0, 0, 0, 0, 0, 0, 0, 0, 0, 0, 0, 0, 93678928973576768847872, 0, 274992985051467289198592, 0, 499987245548122343997440, 0, 728552843512978272681984, 0, 935304326131526160875520, 0, 1107975894032730990575616, 0, 1243094905500137208938496, 0, 1342212107267590009651200, 0, 1409322712630969510133760, 0],
  [0, 0, 0, 0, 0, 0, 0, 0, 0, 0, 0, 0, 0, 39284712150209612742656, 0, 124996811387030585999360, 0, 242850947837659424227328, 0, 374121730452610464350208, 0, 503625406378514086625280, 0, 621547452750068604469248, 0, 722729596221010005196800, 0, 805327264360554005790720, 0, 869582099282938633912320],
  [0, 0, 0, 0, 0, 0, 0, 0, 0, 0, 0, 0, 0, 0, 99997449109624468799488, 0, 342848396947283893026816, 0, 708862226120735616663552, 0, 1151143786008032198000640, 0, 1621428137608874620354560, 0, 2081461237116508814966784, 0, 2505462600232834684682240, 0, 2878616604522831339847680, 0],
  [0, 0, 0, 0, 0, 0, 0, 0, 0, 0, 0, 0, 0, 0, 0, 14285349872803495542784, 0, 52508313045980416049152, 0, 115114378600803219800064, 0, 196536743952590863073280, 0, 289091838488404002078720, 0, 385455784651205336104960, 0, 479769434087138556641280, 0, 567890350552123189493760],
  [0, 0, 0, 0, 0, 0, 0, 0, 0, 0, 0, 0, 0, 0, 0, 0, 24709794374579019317248, 0, 96938424084886921936896, 0, 224613421660103843512320, 0, 402214731809953394196480, 0, 616729255441928537767936, 0, 852923438377135211806720, 0, 1096615849342030986608640, 0],
  [0, 0, 0, 0, 0, 0, 0, 0, 0, 0, 0, 0, 0, 0, 0, 0, 0, 32312808028295640645632, 0, 134768052996062306107392, 0, 329084780571780049797120, 0, 616729255441928537767936, 0, 984142428896694475161600, 0, 1409934663439754125639680, 0, 1870697625348170506567680],
  [0, 0, 0, 0, 0, 0, 0, 0, 0, 0, 0, 0, 0, 0, 0, 0, 0, 0, 9457407227793846042624, 0, 41788543564670482513920, 0, 107257261815987571785728, 0, 209950384831294821367808, 0, 348132015664136821145600, 0, 516054517337426346639360, 0],
  [0, 0, 0, 0, 0, 0, 0, 0, 0, 0, 0, 0, 0, 0, 0, 0, 0, 0, 0, 4178854356467048251392, 0, 19501320330179558506496, 0, 52487596207823705341952, 0, 107117543281272868044800, 0, 184305184763366552371200, 0, 282369452882742717972480],
  [0, 0, 0, 0, 0, 0, 0, 0, 0, 0, 0, 0, 0, 0, 0, 0, 0, 0, 0, 0, 44574446468981848014848, 0, 219078662432655465775104, 0, 616997049300131719938048, 0, 1310614647206162150195200, 0, 2336850644546836286668800, 0],
  [0, 0, 0, 0, 0, 0, 0, 0, 0, 0, 0, 0, 0, 0, 0, 0, 0, 0, 0, 0, 0, 6638747346444105023488, 0, 34277613850007317774336, 0, 100816511323550934630400, 0, 222557204242555836825600, 0, 410719204193080317050880],
  [0, 0, 0, 0, 0, 0, 0, 0, 0, 0, 0, 0, 0, 0, 0, 0, 0, 0, 0, 0, 0, 0, 5961324147827359612928, 0, 32261283623536299081728, 0, 98914312996691483033600, 0, 226603698865147761131520, 0],
  [0, 0, 0, 0, 0, 0, 0, 0, 0, 0, 0, 0, 0, 0, 0, 0, 0, 0, 0, 0, 0, 0, 0, 8065320905884074770432, 0, 45652759844626838323200, 0, 145673806413309275013120, 0, 345868803531015003832320],
  [0, 0, 0, 0, 0, 0, 0, 0, 0, 0, 0, 0, 0, 0, 0, 0, 0, 0, 0, 0, 0, 0, 0, 0, 4869627716760196087808, 0, 28775072871764795064320, 0, 95412083732693794160640, 0],
  [0, 0, 0, 0, 0, 0, 0, 0, 0, 0, 0, 0, 0, 0, 0, 0, 0, 0, 0, 0, 0, 0, 0, 0, 0, 2213467143981907312640, 0, 13630297676099113451520, 0, 46897464885561356451840]]

/-- Scaled moments of the derivatives of order 1. -/
def shapeMom1 : List (List Int) := [
  [-73891680256426391719460100, 0, -14778336051285278343892020, 0, -6333572593407976433096580, 0, -3518651440782209129498100, 0, -2239141825952314900589700, 0, -1550175110274679546562100, 0, -1136795080868098334145540, 0, -869313885369722255523060, 0, -686300435818201780676100, 0, -555576543281401441499700, 0, -458954535754201190804100, 0, -385521810033529000275444, 0, -328407467806339518753156, 0, -283109886039947860994100, 0, -246579578163825556349700, 0],
  [0, -24630560085475463906486700, 9852224034190185562594680, -14778336051285278343892020, 8444763457877301910795440, -10555954322346627388494300, 7037302881564418258996200, -8210186695158487968828900, 5971044869206173068239200, -6717425477856944701769100, 5167250367582265155207000, -5683975404340491670727700, 4547180323472393336582160, -4926112017095092781297340, 4056798131725370525774280, -4346569426848611277615300, 3660268991030409496939200, -3889035802969810090497900, 3333459259688408648998200, -3518651440782209129498100, 3059696905028007938694000, -3212681750279408335628700, 2827159940245879335353256, -2955667210257055668778404, 2627259742450716150025248, -2736728898386162656276300, 2453619012346214795282200, -2547988974359530748946900, 2301409396195705192597200, -2383602588916980378047100],
  [73891680256426391719460100, 0, 14778336051285278343892020, 0, 6333572593407976433096580, 0, 3518651440782209129498100, 0, 2239141825952314900589700, 0, 1550175110274679546562100, 0, 1136795080868098334145540, 0, 869313885369722255523060, 0, 686300435818201780676100, 0, 555576543281401441499700, 0, 458954535754201190804100, 0, 385521810033529000275444, 0, 328407467806339518753156, 0, 283109886039947860994100, 0, 246579578163825556349700, 0],
  [0, 24630560085475463906486700, 9852224034190185562594680, 14778336051285278343892020, 8444763457877301910795440, 10555954322346627388494300, 7037302881564418258996200, 8210186695158487968828900, 5971044869206173068239200, 6717425477856944701769100, 5167250367582265155207000, 5683975404340491670727700, 4547180323472393336582160, 4926112017095092781297340, 4056798131725370525774280, 4346569426848611277615300, 3660268991030409496939200, 3889035802969810090497900, 3333459259688408648998200, 3518651440782209129498100, 3059696905028007938694000, 3212681750279408335628700, 2827159940245879335353256, 2955667210257055668778404, 2627259742450716150025248, 2736728898386162656276300, 2453619012346214795282200, 2547988974359530748946900, 2301409396195705192597200, 2383602588916980378047100],
  [0, -19704448068380371125189360, 0, -8444763457877301910795440, 0, -4691535254376278839330800, 0, -2985522434603086534119600, 0, -2066900147032906062082800, 0, -1515726774490797778860720, 0, -1159085180492963007364080, 0, -915067247757602374234800, 0, -740768724375201921999600, 0, -611939381005601587738800, 0, -514029080044705333700592, 0, -437876623741786025004208, 0, -377479848053263814658800, 0, -328772770885100741799600, 0, -288921525929330954914800],
  [0, 0, -5629842305251534607196960, 0, -3753228203501023071464640, 0, -2559019229659788457816800, 0, -1837244575140360944073600, 0, -1377933431355270708055200, 0, -1069924781993504314489920, 0, -854062764573762215952480, 0, -697194093529601808940800, 0, -579732045163201504173600, 0, -489551504804481270191040, 0, -418838509666056197830112, 0, -362380654131133262072448, 0, -316596001593059973584800, 0, -278958714690388508193600, 0],
  [0, 0, 0, -11259684610503069214393920, 0, -10236076918639153831267200, 0, -8267600588131624248331200, 0, -6614080470505299398664960, 0, -5349623909967521572449600, 0, -4392322789236491396327040, 0, -3660268991030409496939200, 0, -3091904240870408022259200, 0, -2643578125944198859031616, 0, -2284573689087579260891520, 0, -1993093597721232941398464, 0, -1753454778053870622931200, 0, -1554198553275021688507200, 0, -1386823324460788583591040],
  [0, 0, 0, 0, -1364810255818553844168960, 0, -1574781064406023666348800, 0, -1469795660112288755258880, 0, -1296878523628490078169600, 0, -1126236612624741383673600, 0, -976071730941442532517120, 0, -848758026905602202188800, 0, -742057017808897925342208, 0, -652735339739308360254720, 0, -577708289194560272869120, 0, -514346734895802049393152, 0, -460503275044450870668800, 0, -414452947540005783601920, 0],
  [0, 0, 0, 0, 0, -4199416171749396443596800, 0, -5879182640449155021035520, 0, -6225016913416752375214080, 0, -6006595267331954046259200, 0, -5577552748236814471526400, 0, -5092548161433613213132800, 0, -4617243666366475979907072, 0, -4177506174331573505630208, 0, -3781363347455303604234240, 0, -3428978232638680329287680, 0, -3117252938762436662988800, 0, -2841963068845753944698880, 0, -2598731995385982210693120],
  [0, 0, 0, 0, 0, 0, -5039299406099275732316160, 0, -8300022551222336500285440, 0, -9828974073815924802969600, 0, -10297020458283349793587200, 0, -10185096322867226426265600, 0, -9777692469952537369214976, 0, -9234487332732951959814144, 0, -8643116222754979666821120, 0, -8050644546195162512240640, 0, -7481407053029847991173120, 0, -6947020834956287420375040, 0, -6452024264406576523100160, 0],
  [0, 0, 0, 0, 0, 0, 0, -1383337091870389416714240, 0, -2621059753017579947458560, 0, -3432340152761116597862400, 0, -3880036694425610067148800, 0, -4074038529146890570506240, 0, -4104216592325756426584064, 0, -4033454237285657177849856, 0, -3903342810276442430177280, 0, -3740703526514923995586560, 0, -3562574787157070471987200, 0, -3379631757546301988290560, 0, -3198439378936593490083840],
  [0, 0, 0, 0, 0, 0, 0, 0, -582457722892795543879680, 0, -1248123691913133308313600, 0, -1790786166657973877145600, 0, -2172820548878341637603328, 0, -2414245054309268486225920, 0, -2547444781443572954431488, 0, -2602228540184294953451520, 0, -2602228540184294953451520, 0, -2565053846753090739830784, 0, -2503430931515779250585600, 0, -2426402287469139889029120, 0],
  [0, 0, 0, 0, 0, 0, 0, 0, 0, -2995496860591519939952640, 0, -7163144666631895508582400, 0, -11174505679945756993388544, 0, -14485470325855610917355520, 0, -16982965209623819696209920, 0, -18736045489326923664850944, 0, -19871563397770979644538880, 0, -20520430774024725918646272, 0, -20797733892592627620249600, 0, -20797733892592627620249600, 0, -20594829171689284911759360],
  [0, 0, 0, 0, 0, 0, 0, 0, 0, 0, -434129979795872455065600, 0, -1146103146661103281373184, 0, -1931396043447414788980736, 0, -2663994542686089364111360, 0, -3287025524443319941201920, 0, -3785059694813519932293120, 0, -4163565664294871925522432, 0, -4436849897086427225653248, 0, -4621718642798361693388800, 0, -4734443487744663198105600, 0],
  [0, 0, 0, 0, 0, 0, 0, 0, 0, 0, 0, -382034382220367760457728, 0, -1103654881969951307988992, 0, -1997995907014567023083520, 0, -2921800466171839947735040, 0, -3785059694813519932293120, 0, -4542071633776223918751744, 0, -5176324879934165096595456, 0, -5688269098828752853401600, 0, -6087141627100281254707200, 0, -6385993541609080592793600],
  [0, 0, 0, 0, 0, 0, 0, 0, 0, 0, 0, 0, -509379176293823680610304, 0, -1598396725611653618466816, 0, -3093671081829007003484160, 0, -4781128035553919914475520, 0, -6488673762537462741073920, 0, -8102073725114345368584192, 0, -9556292086032304793714688, 0, -10821585114844944452812800, 0, -11891160387823805241753600, 0],
  [0, 0, 0, 0, 0, 0, 0, 0, 0, 0, 0, 0, 0, -1217826076656497995022336, 0, -4124894775772009337978880, 0, -8499783174318079847956480, 0, -13842504026746587180957696, 0, -19641390848762049378385920, 0, -25483445562752812783239168, 0, -31077372637503430223462400, 0, -36239726896224930260582400, 0, -40870358666298115793879040],
  [0, 0, 0, 0, 0, 0, 0, 0, 0, 0, 0, 0, 0, 0, -549985970102934578397184, 0, -1999948982192489375989760, 0, -4371317061077869636091904, 0, -7482434609052209287004160, 0, -11079758940327309905756160, 0, -14917138866001646507261952, 0, -18790969501746260135116800, 0, -22549163402095512162140160, 0],
  [0, 0, 0, 0, 0, 0, 0, 0, 0, 0, 0, 0, 0, 0, 0, -1499961736644367031992320, 0, -5828422748103826181455872, 0, -13468382296293976716607488, 0, -24174019506168676158013440, 0, -37292847165004116268154880, 0, -52036530927912720374169600, 0, -67647490206286536486420480, 0, -83479881531162108855582720],
  [0, 0, 0, 0, 0, 0, 0, 0, 0, 0, 0, 0, 0, 0, 0, 0, -228565597964855928684544, 0, -945149634827647488884736, 0, -2302287572016064396001280, 0, -4323808366956998987612160, 0, -6938204123721696049889280, 0, -10021850400931338738728960, 0, -13433544154439879585955840, 0],
  [0, 0, 0, 0, 0, 0, 0, 0, 0, 0, 0, 0, 0, 0, 0, 0, 0, -420066504367843328393216, 0, -1841830057612851516801024, 0, -4716881854862180713758720, 0, -9250938831628928066519040, 0, -15418231386048213444198400, 0, -23028932836182650718781440, 0, -31801859630918898611650560],
  [0, 0, 0, 0, 0, 0, 0, 0, 0, 0, 0, 0, 0, 0, 0, 0, 0, 0, -581630544509321531621376, 0, -2695361059921246122147840, 0, -7239865172579161095536640, 0, -14801502130606284906430464, 0, -25587703151314056354201600, 0, -39478170576313115517911040, 0],
  [0, 0, 0, 0, 0, 0, 0, 0, 0, 0, 0, 0, 0, 0, 0, 0, 0, 0, 0, -179690737328083074809856, 0, -877559414858080132792320, 0, -2466917021767714151071744, 0, -5248759620782370534195200, 0, -9399564422931694170931200, 0, -14965581002785364052541440],
  [0, 0, 0, 0, 0, 0, 0, 0, 0, 0, 0, 0, 0, 0, 0, 0, 0, 0, 0, 0, -83577087129340965027840, 0, -429029047263950287142912, 0, -1259702308987768928206848, 0, -2785056125313094569164800, 0, -5160545173374263466393600, 0],
  [0, 0, 0, 0, 0, 0, 0, 0, 0, 0, 0, 0, 0, 0, 0, 0, 0, 0, 0, 0, 0, -936063375848618808311808, 0, -5038809235951075712827392, 0, -15424926232503292998451200, 0, -35386595474566378055270400, 0, -67768668691858252313395200],
  [0, 0, 0, 0, 0, 0, 0, 0, 0, 0, 0, 0, 0, 0, 0, 0, 0, 0, 0, 0, 0, 0, -146052441621770310516736, 0, -822662732400175626584064, 0, -2621229294412324300390400, 0, -6231601718791563431116800, 0],
  [0, 0, 0, 0, 0, 0, 0, 0, 0, 0, 0, 0, 0, 0, 0, 0, 0, 0, 0, 0, 0, 0, 0, -137110455400029271097344, 0, -806532090588407477043200, 0, -2670686450910670041907200, 0, -6571507267089285072814080],
  [0, 0, 0, 0, 0, 0, 0, 0, 0, 0, 0, 0, 0, 0, 0, 0, 0, 0, 0, 0, 0, 0, 0, 0, -193567701741217794490368, 0, -1186971755960297796403200, 0, -4078866579572659700367360, 0],
  [0, 0, 0, 0, 0, 0, 0, 0, 0, 0, 0, 0, 0, 0, 0, 0, 0, 0, 0, 0, 0, 0, 0, 0, 0, -121740692919004902195200, 0, -776926967537649466736640, 0, -2766950428248120030658560],
  [0, 0, 0, 0, 0, 0, 0, 0, 0, 0, 0, 0, 0, 0, 0, 0, 0, 0, 0, 0, 0, 0, 0, 0, 0, 0, -57550145743529590128640, 0, -381648334930775176642560, 0]]

/-- Scaled moments of the derivatives of order 2. -/
def shapeMom2 : List (List Int) := [
  [0, 73891680256426391719460100, 0, 44335008153855835031676060, 0, 31667862967039882165482900, 0, 24630560085475463906486700, 0, 20152276433570834105307300, 0, 17051926213021475012183100, 0, 14778336051285278343892020, 0, 13039708280545833832845900, 0, 11667107408909430271493700, 0, 10555954322346627388494300, 0, 9638045250838225006886100, 0, 8867001630771167006335212, 0, 8210186695158487968828900, 0, 7643966923078592246840700, 0, 7150807766750941134141300],
  [-73891680256426391719460100, 73891680256426391719460100, -24630560085475463906486700, 44335008153855835031676060, -14778336051285278343892020, 31667862967039882165482900, -10555954322346627388494300, 24630560085475463906486700, -8210186695158487968828900, 20152276433570834105307300, -6717425477856944701769100, 17051926213021475012183100, -5683975404340491670727700, 14778336051285278343892020, -4926112017095092781297340, 13039708280545833832845900, -4346569426848611277615300, 11667107408909430271493700, -3889035802969810090497900, 10555954322346627388494300, -3518651440782209129498100, 9638045250838225006886100, -3212681750279408335628700, 8867001630771167006335212, -2955667210257055668778404, 8210186695158487968828900, -2736728898386162656276300, 7643966923078592246840700, -2547988974359530748946900, 7150807766750941134141300],
  [0, -73891680256426391719460100, 0, -44335008153855835031676060, 0, -31667862967039882165482900, 0, -24630560085475463906486700, 0, -20152276433570834105307300, 0, -17051926213021475012183100, 0, -14778336051285278343892020, 0, -13039708280545833832845900, 0, -11667107408909430271493700, 0, -10555954322346627388494300, 0, -9638045250838225006886100, 0, -8867001630771167006335212, 0, -8210186695158487968828900, 0, -7643966923078592246840700, 0, -7150807766750941134141300],
  [73891680256426391719460100, 73891680256426391719460100, 24630560085475463906486700, 44335008153855835031676060, 14778336051285278343892020, 31667862967039882165482900, 10555954322346627388494300, 24630560085475463906486700, 8210186695158487968828900, 20152276433570834105307300, 6717425477856944701769100, 17051926213021475012183100, 5683975404340491670727700, 14778336051285278343892020, 4926112017095092781297340, 13039708280545833832845900, 4346569426848611277615300, 11667107408909430271493700, 3889035802969810090497900, 10555954322346627388494300, 3518651440782209129498100, 9638045250838225006886100, 3212681750279408335628700, 8867001630771167006335212, 2955667210257055668778404, 8210186695158487968828900, 2736728898386162656276300, 7643966923078592246840700, 2547988974359530748946900, 7150807766750941134141300],
  [0, 0, 39408896136760742250378720, 0, 33779053831509207643181760, 0, 28149211526257673035984800, 0, 23884179476824692272956800, 0, 20669001470329060620828000, 0, 18188721293889573346328640, 0, 16227192526901482103097120, 0, 14641075964121637987756800, 0, 13333837038753634595992800, 0, 12238787620112031754776000, 0, 11308639760983517341413024, 0, 10509038969802864600100992, 0, 9814476049384859181128800, 0, 9205637584782820770388800, 0],
  [0, 0, 0, 16889526915754603821590880, 0, 18766141017505115357323200, 0, 17913134607618519204717600, 0, 16535201176263248496662400, 0, 15157267744907977788607200, 0, 13909022165915556088368960, 0, 12810941468606433239287200, 0, 11852299590003230751993600, 0, 11014908858100828579298400, 0, 10280581600894106674011840, 0, 9633285722319292550092576, 0, 9059516353278331551811200, 0, 8548092043012619286789600, 0, 8089802726021266737614400],
  [0, 0, 0, 0, 45038738442012276857575680, 0, 61416461511834922987603200, 0, 66140804705052993986649600, 0, 66140804705052993986649600, 0, 64195486919610258869395200, 0, 61492519049310879548578560, 0, 58564303856486551951027200, 0, 55654276335667344400665600, 0, 52871562518883977180632320, 0, 50260621159926743739613440, 0, 47834246345309590593563136, 0, 45589824229400636196211200, 0, 43517559491700607278201600, 0],
  [0, 0, 0, 0, 0, 6824051279092769220844800, 0, 11023467450842165664441600, 0, 13228160941010598797329920, 0, 14265663759913390859865600, 0, 14641075964121637987756800, 0, 14641075964121637987756800, 0, 14428886457395237437209600, 0, 14099083338369060581501952, 0, 13707442134525475565349120, 0, 13287290651474886275989760, 0, 12858668372395051234828800, 0, 12433588426200173508057600, 0, 12019135478660167724455680],
  [0, 0, 0, 0, 0, 0, 25196497030496378661580800, 0, 47033461123593240168284160, 0, 62250169134167523752140800, 0, 72079143207983448555110400, 0, 78085738475315402601369600, 0, 81480770582937811410124800, 0, 83110385994596567638327296, 0, 83550123486631470112604160, 0, 83189993644016679293153280, 0, 82295477583328327902904320, 0, 81048576407823353237708800, 0, 79574965927681110451568640, 0],
  [0, 0, 0, 0, 0, 0, 0, 35275095842694930126213120, 0, 74700202961001028502568960, 0, 108118714811975172832665600, 0, 133861265957683547316633600, 0, 152776444843008396393984000, 0, 166220771989193135276654592, 0, 175455259321926087236468736, 0, 181505440677854573003243520, 0, 185164824562488737781534720, 0, 187035176325746199779328000, 0, 187569562543819760350126080, 0, 187108703667790719169904640],
  [0, 0, 0, 0, 0, 0, 0, 0, 11066696734963115333713920, 0, 26210597530175799474585600, 0, 41188081833133399174348800, 0, 54320513721958540940083200, 0, 65184616466350249128099840, 0, 73875898661863615678513152, 0, 80669084745713143556997120, 0, 85873541826081733463900160, 0, 89776884636358175894077440, 0, 92626944466083832271667200, 0, 94629689211296455672135680, 0],
  [0, 0, 0, 0, 0, 0, 0, 0, 0, 5242119506035159894917120, 0, 13729360611044466391449600, 0, 23280220166553660402892800, 0, 32592308233175124564049920, 0, 41042165923257564265840640, 0, 48401450847427886134198272, 0, 54646799343870194022481920, 0, 59851256424238783929384960, 0, 64126346168827268495769600, 0, 67592635150926039765811200, 0, 70365666336605056781844480],
  [0, 0, 0, 0, 0, 0, 0, 0, 0, 0, 29954968605915199399526400, 0, 85957735999582746102988800, 0, 156443079519240597907439616, 0, 231767525213689774677688320, 0, 305693373773228754531778560, 0, 374720909786538473297018880, 0, 437174394750961552179855360, 0, 492490338576593422047510528, 0, 540741081207408318126489600, 0, 582336548992593573366988800, 0],
  [0, 0, 0, 0, 0, 0, 0, 0, 0, 0, 0, 4775429777754597005721600, 0, 14899340906594342657851392, 0, 28970940651711221834711040, 0, 45287907225663519189893120, 0, 62453484964423078882836480, 0, 79486253591083918578155520, 0, 95762010278782054287015936, 0, 110921247427160680641331200, 0, 124786403355555765721497600, 0, 137298861144595232745062400],
  [0, 0, 0, 0, 0, 0, 0, 0, 0, 0, 0, 0, 4584412586644413125492736, 0, 15451168347579318311845888, 0, 31967934512233072369336320, 0, 52592408391093119059230720, 0, 75701193896270398645862400, 0, 99925575943076926212538368, 0, 124231797118419962318290944, 0, 147894996569547574188441600, 0, 170439965558807875131801600, 0],
  [0, 0, 0, 0, 0, 0, 0, 0, 0, 0, 0, 0, 0, 6621929291819707847933952, 0, 23975950884174804277002240, 0, 52592408391093119059230720, 0, 90841432675524478375034880, 0, 136262149013286717562552320, 0, 186347695677629943477436416, 0, 238907302150807619842867200, 0, 292182798100813500225945600, 0, 344843651246890352010854400],
  [0, 0, 0, 0, 0, 0, 0, 0, 0, 0, 0, 0, 0, 0, 17049565073190971930312704, 0, 65998316412352149407662080, 0, 152996097137725437263216640, 0, 276850080534931743619153920, 0, 432110598672765086324490240, 0, 611602693506067506797740032, 0, 808011688575089185810022400, 0, 1014712353094298047296307200, 0],
  [0, 0, 0, 0, 0, 0, 0, 0, 0, 0, 0, 0, 0, 0, 0, 8249789551544018675957760, 0, 33999132697272319391825920, 0, 83055024160479523085746176, 0, 157131126790096395027087360, 0, 254834455627528127832391680, 0, 372928471650041162681548800, 0, 507356176547149023648153600, 0, 653925738660769852702064640],
  [0, 0, 0, 0, 0, 0, 0, 0, 0, 0, 0, 0, 0, 0, 0, 0, 23999387786309872511877120, 0, 104911609465868871266205696, 0, 269367645925879534332149760, 0, 531828429135710875476295680, 0, 895028331960098790435717120, 0, 1352949804125730729728409600, 0, 1894129725776023021619773440, 0],
  [0, 0, 0, 0, 0, 0, 0, 0, 0, 0, 0, 0, 0, 0, 0, 0, 0, 3885615165402550787637248, 0, 17957843061725302288809984, 0, 48348039012337352316026880, 0, 99447592440010976715079680, 0, 173455103093042401247232000, 0, 270589960825146145945681920, 0, 389572780478756507992719360],
  [0, 0, 0, 0, 0, 0, 0, 0, 0, 0, 0, 0, 0, 0, 0, 0, 0, 0, 7561197078621179911077888, 0, 36836601152257030336020480, 0, 103771400806967975702691840, 0, 222022531959094273596456960, 0, 400874016037253549549158400, 0, 644810119413114220125880320, 0],
  [0, 0, 0, 0, 0, 0, 0, 0, 0, 0, 0, 0, 0, 0, 0, 0, 0, 0, 0, 11050980345677109100806144, 0, 56602582258346168565104640, 0, 166516898969320705197342720, 0, 370037553265157122660761600, 0, 690867985085479521563443200, 0, 1144866946713080350019420160],
  [0, 0, 0, 0, 0, 0, 0, 0, 0, 0, 0, 0, 0, 0, 0, 0, 0, 0, 0, 0, 3593814746561661496197120, 0, 19306307126877762921431040, 0, 59206008522425139625721856, 0, 136467750140341633889075200, 0, 263187803842087436786073600, 0],
  [0, 0, 0, 0, 0, 0, 0, 0, 0, 0, 0, 0, 0, 0, 0, 0, 0, 0, 0, 0, 0, 1755118829716160265584640, 0, 9867668087070856604286976, 0, 31492557724694223205171200, 0, 75196515383453553367449600, 0, 149655810027853640525414400],
  [0, 0, 0, 0, 0, 0, 0, 0, 0, 0, 0, 0, 0, 0, 0, 0, 0, 0, 0, 0, 0, 0, 20593394268669613782859776, 0, 120931421662825817107857408, 0, 401048082045085617959731200, 0, 990824673287858585547571200, 0],
  [0, 0, 0, 0, 0, 0, 0, 0, 0, 0, 0, 0, 0, 0, 0, 0, 0, 0, 0, 0, 0, 0, 0, 3359206157300717141884928, 0, 20566568310004390664601600, 0, 70773190949132756110540800, 0, 180716449844955339502387200],
  [0, 0, 0, 0, 0, 0, 0, 0, 0, 0, 0, 0, 0, 0, 0, 0, 0, 0, 0, 0, 0, 0, 0, 0, 3290650929600702506336256, 0, 20969834355298594403123200, 0, 74779220625498761173401600, 0],
  [0, 0, 0, 0, 0, 0, 0, 0, 0, 0, 0, 0, 0, 0, 0, 0, 0, 0, 0, 0, 0, 0, 0, 0, 0, 4839192543530444862259200, 0, 32048237410928040502886400, 0, 118287130807607131310653440],
  [0, 0, 0, 0, 0, 0, 0, 0, 0, 0, 0, 0, 0, 0, 0, 0, 0, 0, 0, 0, 0, 0, 0, 0, 0, 0, 3165258015894127457075200, 0, 21753955091054185068625920, 0],
  [0, 0, 0, 0, 0, 0, 0, 0, 0, 0, 0, 0, 0, 0, 0, 0, 0, 0, 0, 0, 0, 0, 0, 0, 0, 0, 0, 1553853935075298933473280, 0, 11067801712992480122634240]]

/-- Common denominator of the moments. -/
def momDen : Nat := 18472920064106597929865025

end Composipy
