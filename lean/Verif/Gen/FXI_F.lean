/-!
Generated by tools/gen_tables.py from pre_integrated_component/_ii_F.py.
Every entry is the verbatim text of the shipped dictionary, packed base 256 (see `unpack`).
-/

namespace Composipy

/-- `ii_FXI_F`, row `i`, column `k`. [_ii_F.py:910-1811] -/
def text_FXI_F : List (List Nat) := [
  [0x2d302e353030303030303030303030303030, 0x2d302e313030303030303030303030303030, 0x2d302e353030303030303030303030303030, 0x302e313030303030303030303030303030, 0x2d302e30383537313432383537313432383537, 0x30, 0x302e3030333137343630333137343630333136, 0x30, 0x30, 0x30, 0x30, 0x30, 0x30, 0x30, 0x342e3434303839323039383530303633652d3136, 0x30, 0x322e3838363537393836343032353431652d3135, 0x30, 0x312e3339313234383232373733333430652d3134, 0x30, 0x322e3133313632383230373238303330652d3134, 0x30, 0x30, 0x30, 0x312e3432313038353437313532303230652d3132, 0x30, 0x30, 0x30, 0x30, 0x30],
  [0x302e313030303030303030303030303030, 0x30, 0x2d302e313030303030303030303030303030, 0x302e30313636363636363636363636363637, 0x2d302e3030393532333830393532333830393532, 0x2d302e3030343736313930343736313930343736, 0x302e3030313538373330313538373330313539, 0x2d352e3230343137303432373933303432652d3138, 0x332e3436393434363935313935333631652d3138, 0x2d332e3732393635353437333335303134652d3137, 0x312e3930383139353832333537343439652d3137, 0x30, 0x332e3639373132393430383137353537652d3137, 0x2d312e3131303232333032343632353136652d3136, 0x30, 0x312e3232313234353332373038373637652d3135, 0x30, 0x382e3838313738343139373030313235652d3136, 0x30, 0x312e3139393034303836363539353137652d3134, 0x2d382e3838313738343139373030313235652d3136, 0x322e3936303532323435323138383932652d3135, 0x312e3839343735313731363633353637652d3134, 0x2d312e3531333434323134393338313231652d3133, 0x362e3538343336323633393533353137652d3133, 0x30, 0x2d332e3738393539303136393434353133652d3134, 0x312e3830343737383534383833303635652d3132, 0x30, 0x362e3036333239373635303431383830652d3133],
  [0x302e353030303030303030303030303030, 0x302e313030303030303030303030303030, 0x302e353030303030303030303030303030, 0x2d302e313030303030303030303030303030, 0x302e30383537313432383537313432383537, 0x30, 0x2d302e3030333137343630333137343630333137, 0x30, 0x30, 0x30, 0x30, 0x30, 0x2d312e3338373737383738303738313435652d3136, 0x30, 0x332e3333303636393037333837353437652d3136, 0x30, 0x332e3535323731333637383830303530652d3135, 0x30, 0x2d372e3130353432373335373630313030652d3135, 0x30, 0x322e3339383038313733333139303334652d3134, 0x30, 0x2d312e3434333238393933323031323730652d3135, 0x30, 0x2d342e3032363433313936353632303235652d3133, 0x30, 0x2d332e3633373039303632383637323031652d3133, 0x30, 0x30, 0x30],
  [0x2d302e313030303030303030303030303030, 0x2d302e30313636363636363636363636363637, 0x302e313030303030303030303030303030, 0x30, 0x2d302e3030393532333830393532333830393532, 0x302e3030343736313930343736313930343735, 0x302e3030313538373330313538373330313538, 0x2d352e3230343137303432373933303432652d3138, 0x362e3933383839333930333930373233652d3138, 0x312e3338373737383738303738313435652d3137, 0x2d382e3637333631373337393838343034652d3138, 0x322e3737353535373536313536323839652d3137, 0x322e3737353535373536313536323839652d3137, 0x2d312e3338373737383738303738313435652d3136, 0x30, 0x2d382e3838313738343139373030313235652d3136, 0x2d322e3232303434363034393235303331652d3136, 0x312e3131303232333032343632353136652d3135, 0x2d332e3535323731333637383830303530652d3135, 0x312e3138343233303636343931393032652d3134, 0x312e3333323236373632393535303139652d3134, 0x2d312e3138363535303835373536383134652d3135, 0x342e3733363932323635393637363037652d3134, 0x2d312e3531353832353232353735363333652d3133, 0x352e3434383937343630343836303237652d3133, 0x322e3834323137303934333034303430652d3134, 0x2d392e3437333930363033343637333830652d3133, 0x312e3831383938393430333534353836652d3132, 0x30, 0x30],
  [0x302e30383537313432383537313432383537, 0x302e3030393532333830393532333830393531, 0x2d302e30383537313432383537313432383537, 0x302e3030393532333830393532333830393531, 0x30, 0x2d322f333135, 0x30, 0x322f33343635, 0x30, 0x30, 0x30, 0x30, 0x30, 0x30, 0x30, 0x30, 0x30, 0x30, 0x30, 0x30, 0x30, 0x30, 0x30, 0x30, 0x30, 0x30, 0x30, 0x30, 0x30, 0x30],
  [0x30, 0x302e3030343736313930343736313930343736, 0x30, 0x2d302e3030343736313930343736313930343735, 0x322f333135, 0x30, 0x2d322f31313535, 0x30, 0x322f39303039, 0x30, 0x30, 0x30, 0x30, 0x30, 0x30, 0x30, 0x30, 0x30, 0x30, 0x30, 0x30, 0x30, 0x30, 0x30, 0x30, 0x30, 0x30, 0x30, 0x30, 0x30],
  [0x2d302e3030333137343630333137343630333136, 0x2d302e3030313538373330313538373330313538, 0x302e3030333137343630333137343630333231, 0x2d302e3030313538373330313538373330313539, 0x30, 0x322f31313535, 0x30, 0x2d322f33303033, 0x30, 0x322f3139333035, 0x30, 0x30, 0x30, 0x30, 0x30, 0x30, 0x30, 0x30, 0x30, 0x30, 0x30, 0x30, 0x30, 0x30, 0x30, 0x30, 0x30, 0x30, 0x30, 0x30],
  [0x30, 0x362e3933383839333930333930373233652d3138, 0x30, 0x322e3038313636383137313137323137652d3137, 0x2d322f33343635, 0x30, 0x322f33303033, 0x30, 0x2d322f36343335, 0x30, 0x322f3336343635, 0x30, 0x30, 0x30, 0x30, 0x30, 0x30, 0x30, 0x30, 0x30, 0x30, 0x30, 0x30, 0x30, 0x30, 0x30, 0x30, 0x30, 0x30, 0x30],
  [0x30, 0x30, 0x30, 0x30, 0x30, 0x2d322f39303039, 0x30, 0x322f36343335, 0x30, 0x2d322f3132313535, 0x30, 0x322f3632393835, 0x30, 0x30, 0x30, 0x30, 0x30, 0x30, 0x30, 0x30, 0x30, 0x30, 0x30, 0x30, 0x30, 0x30, 0x30, 0x30, 0x30, 0x30],
  [0x312e3131303232333032343632353136652d3136, 0x342e3136333333363334323334343334652d3137, 0x352e3535313131353132333132353738652d3137, 0x322e3737353535373536313536323839652d3137, 0x30, 0x30, 0x2d322f3139333035, 0x30, 0x322f3132313535, 0x30, 0x2d322f3230393935, 0x30, 0x322f313031373435, 0x30, 0x30, 0x30, 0x30, 0x30, 0x30, 0x30, 0x30, 0x30, 0x30, 0x30, 0x30, 0x30, 0x30, 0x30, 0x30, 0x30],
  [0x30, 0x342e3136333333363334323334343334652d3137, 0x30, 0x352e3535313131353132333132353738652d3137, 0x30, 0x30, 0x30, 0x2d322f3336343635, 0x30, 0x322f3230393935, 0x30, 0x2d322f3333393135, 0x30, 0x322f313536303039, 0x30, 0x30, 0x30, 0x30, 0x30, 0x30, 0x30, 0x30, 0x30, 0x30, 0x30, 0x30, 0x30, 0x30, 0x30, 0x30],
  [0x30, 0x322e3232303434363034393235303331652d3136, 0x30, 0x312e3532363535363635383835393539652d3136, 0x30, 0x30, 0x30, 0x30, 0x2d322f3632393835, 0x30, 0x322f3333393135, 0x30, 0x2d322f3532303033, 0x30, 0x322f323239343235, 0x30, 0x30, 0x30, 0x30, 0x30, 0x30, 0x30, 0x30, 0x30, 0x30, 0x30, 0x30, 0x30, 0x30, 0x30],
  [0x362e3636313333383134373735303934652d3136, 0x2d332e3035333131333331373731393138652d3136, 0x2d372e3737313536313137323337363130652d3136, 0x2d382e3332363637323638343638383637652d3137, 0x30, 0x30, 0x30, 0x30, 0x30, 0x2d322f313031373435, 0x30, 0x322f3532303033, 0x30, 0x2d322f3736343735, 0x30, 0x322f333236303235, 0x30, 0x30, 0x30, 0x30, 0x30, 0x30, 0x30, 0x30, 0x30, 0x30, 0x30, 0x30, 0x30, 0x30],
  [0x30, 0x2d342e3434303839323039383530303633652d3136, 0x2d312e3737363335363833393430303235652d3135, 0x30, 0x30, 0x30, 0x30, 0x30, 0x30, 0x30, 0x2d322f313536303039, 0x30, 0x322f3736343735, 0x30, 0x2d322f313038363735, 0x30, 0x322f343530323235, 0x30, 0x30, 0x30, 0x30, 0x30, 0x30, 0x30, 0x30, 0x30, 0x30, 0x30, 0x30, 0x30],
  [0x2d312e3737363335363833393430303235652d3135, 0x2d342e3434303839323039383530303633652d3136, 0x2d322e3232303434363034393235303331652d3135, 0x382e3838313738343139373030313235652d3136, 0x30, 0x30, 0x30, 0x30, 0x30, 0x30, 0x30, 0x2d322f323239343235, 0x30, 0x322f313038363735, 0x30, 0x2d322f313530303735, 0x30, 0x322f363036383235, 0x30, 0x30, 0x30, 0x30, 0x30, 0x30, 0x30, 0x30, 0x30, 0x30, 0x30, 0x30],
  [0x2d372e3130353432373335373630313030652d3135, 0x312e3737363335363833393430303235652d3135, 0x332e3535323731333637383830303530652d3135, 0x2d312e3737363335363833393430303235652d3135, 0x30, 0x30, 0x30, 0x30, 0x30, 0x30, 0x30, 0x30, 0x2d322f333236303235, 0x30, 0x322f313530303735, 0x30, 0x2d322f323032323735, 0x30, 0x322f383031303039, 0x30, 0x30, 0x30, 0x30, 0x30, 0x30, 0x30, 0x30, 0x30, 0x30, 0x30],
  [0x342e3434303839323039383530303633652d3135, 0x2d332e3535323731333637383830303530652d3135, 0x372e3130353432373335373630313030652d3135, 0x312e3737363335363833393430303235652d3135, 0x30, 0x30, 0x30, 0x30, 0x30, 0x30, 0x30, 0x30, 0x30, 0x2d322f343530323235, 0x30, 0x322f323032323735, 0x30, 0x2d322f323637303033, 0x30, 0x322f31303338333435, 0x30, 0x30, 0x30, 0x30, 0x30, 0x30, 0x30, 0x30, 0x30, 0x30],
  [0x30, 0x30, 0x322e3834323137303934333034303430652d3134, 0x312e3036353831343130333634303135652d3134, 0x30, 0x30, 0x30, 0x30, 0x30, 0x30, 0x30, 0x30, 0x30, 0x30, 0x2d322f363036383235, 0x30, 0x322f323637303033, 0x30, 0x2d322f333436313135, 0x30, 0x322f31333234373835, 0x30, 0x30, 0x30, 0x30, 0x30, 0x30, 0x30, 0x30, 0x30],
  [0x2d382e3838313738343139373030313235652d3134, 0x322e3834323137303934333034303430652d3134, 0x312e3133363836383337373231363136652d3133, 0x2d332e3535323731333637383830303530652d3134, 0x30, 0x30, 0x30, 0x30, 0x30, 0x30, 0x30, 0x30, 0x30, 0x30, 0x30, 0x2d322f383031303039, 0x30, 0x322f333436313135, 0x30, 0x2d322f343431353935, 0x30, 0x322f31363636363635, 0x30, 0x30, 0x30, 0x30, 0x30, 0x30, 0x30, 0x30],
  [0x30, 0x2d342e3739363136333436363338303638652d3134, 0x30, 0x2d382e3532363531323832393132313230652d3134, 0x30, 0x30, 0x30, 0x30, 0x30, 0x30, 0x30, 0x30, 0x30, 0x30, 0x30, 0x30, 0x2d322f31303338333435, 0x30, 0x322f343431353935, 0x30, 0x2d322f353535353535, 0x30, 0x322f32303730373035, 0x30, 0x30, 0x30, 0x30, 0x30, 0x30, 0x30],
  [0x352e3638343334313838363038303830652d3134, 0x2d312e3237383937363932343336383138652d3133, 0x322e3632393030383132323331323337652d3133, 0x2d372e3130353432373335373630313030652d3134, 0x30, 0x30, 0x30, 0x30, 0x30, 0x30, 0x30, 0x30, 0x30, 0x30, 0x30, 0x30, 0x30, 0x2d322f31333234373835, 0x30, 0x322f353535353535, 0x30, 0x2d322f363930323335, 0x30, 0x322f32353434303039, 0x30, 0x30, 0x30, 0x30, 0x30, 0x30],
  [0x2d332e3033373537303139353337343433652d3133, 0x372e3539333932353438383433363037652d3134, 0x362e3036323932373933373437373938652d3133, 0x382e3532363531323832393132313230652d3134, 0x30, 0x30, 0x30, 0x30, 0x30, 0x30, 0x30, 0x30, 0x30, 0x30, 0x30, 0x30, 0x30, 0x30, 0x2d322f31363636363635, 0x30, 0x322f363930323335, 0x30, 0x2d322f383438303033, 0x30, 0x322f33303934303635, 0x30, 0x30, 0x30, 0x30, 0x30],
  [0x30, 0x2d332e3033313635343738383332313335652d3133, 0x2d352e3737333135393732383035303831652d3135, 0x312e3531353831383732303534333239652d3133, 0x30, 0x30, 0x30, 0x30, 0x30, 0x30, 0x30, 0x30, 0x30, 0x30, 0x30, 0x30, 0x30, 0x30, 0x30, 0x2d322f32303730373035, 0x30, 0x322f383438303033, 0x30, 0x2d322f31303331333535, 0x30, 0x322f33373238373435, 0x30, 0x30, 0x30, 0x30],
  [0x30, 0x2d312e3231363336303334353737393332652d3132, 0x30, 0x2d312e3231323636383835343232323434652d3132, 0x30, 0x30, 0x30, 0x30, 0x30, 0x30, 0x30, 0x30, 0x30, 0x30, 0x30, 0x30, 0x30, 0x30, 0x30, 0x30, 0x2d322f32353434303039, 0x30, 0x322f31303331333535, 0x30, 0x2d322f31323432393135, 0x30, 0x322f34343536333035, 0x30, 0x30, 0x30],
  [0x322e3631343739373236373539373137652d3132, 0x312e3336343234323035323635393339652d3132, 0x322e3834323137303934333034303430652d3132, 0x332e3138333233313435363230353235652d3132, 0x30, 0x30, 0x30, 0x30, 0x30, 0x30, 0x30, 0x30, 0x30, 0x30, 0x30, 0x30, 0x30, 0x30, 0x30, 0x30, 0x30, 0x2d322f33303934303635, 0x30, 0x322f31323432393135, 0x30, 0x2d322f31343835343335, 0x30, 0x322f35323835333835, 0x30, 0x30],
  [0x30, 0x312e3831383938393430333534353836652d3132, 0x2d312e3435353139313532323833363639652d3131, 0x312e3539313631353732383130323632652d3132, 0x30, 0x30, 0x30, 0x30, 0x30, 0x30, 0x30, 0x30, 0x30, 0x30, 0x30, 0x30, 0x30, 0x30, 0x30, 0x30, 0x30, 0x30, 0x2d322f33373238373435, 0x30, 0x322f31343835343335, 0x30, 0x2d322f31373631373935, 0x30, 0x322f36323235303039, 0x30],
  [0x30, 0x2d372e3537393132333039333031353536652d3132, 0x30, 0x362e3937323739323133353335313239652d3132, 0x30, 0x30, 0x30, 0x30, 0x30, 0x30, 0x30, 0x30, 0x30, 0x30, 0x30, 0x30, 0x30, 0x30, 0x30, 0x30, 0x30, 0x30, 0x30, 0x2d322f34343536333035, 0x30, 0x322f31373631373935, 0x30, 0x2d322f32303735303033, 0x30, 0x322f37323834353835],
  [0x312e3136343135333231383236393335652d3130, 0x2d322e3931303338333034353637333337652d3131, 0x30, 0x2d322e3834393735303939303734313033652d3131, 0x30, 0x30, 0x30, 0x30, 0x30, 0x30, 0x30, 0x30, 0x30, 0x30, 0x30, 0x30, 0x30, 0x30, 0x30, 0x30, 0x30, 0x30, 0x30, 0x30, 0x2d322f35323835333835, 0x30, 0x322f32303735303033, 0x30, 0x2d322f32343238313935, 0x30],
  [0x30, 0x30, 0x30, 0x30, 0x30, 0x30, 0x30, 0x30, 0x30, 0x30, 0x30, 0x30, 0x30, 0x30, 0x30, 0x30, 0x30, 0x30, 0x30, 0x30, 0x30, 0x30, 0x30, 0x30, 0x30, 0x2d322f36323235303039, 0x30, 0x322f32343238313935, 0x30, 0x2d322f32383234363335],
  [0x2d342e3635363631323837333037373339652d3130, 0x312e3036373134303534323539383832652d3130, 0x30, 0x312e3136343135333231383236393335652d3130, 0x30, 0x30, 0x30, 0x30, 0x30, 0x30, 0x30, 0x30, 0x30, 0x30, 0x30, 0x30, 0x30, 0x30, 0x30, 0x30, 0x30, 0x30, 0x30, 0x30, 0x30, 0x30, 0x2d322f37323834353835, 0x30, 0x322f32383234363335, 0x30]]

end Composipy
