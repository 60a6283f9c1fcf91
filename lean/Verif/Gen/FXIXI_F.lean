/-!
Generated by tools/gen_tables.py from pre_integrated_component/_ii_F.py.
Every entry is the verbatim text of the shipped dictionary, packed base 256 (see `unpack`).
-/

namespace Composipy

/-- `ii_FXIXI_F`, row `i`, column `k`. [_ii_F.py:2718-3619] -/
def text_FXIXI_F : List (List Nat) := [
  [0x2d302e363030303030303030303030303030, 0x2d302e30353030303030303030303030303030, 0x302e363030303030303030303030303030, 0x2d302e30353030303030303030303030303030, 0x30, 0x302e30323835373134323835373134323836, 0x30, 0x30, 0x30, 0x30, 0x30, 0x30, 0x30, 0x2d312e3636353333343533363933373733652d3136, 0x30, 0x2d382e3838313738343139373030313235652d3136, 0x30, 0x30, 0x30, 0x372e3939333630353737373330313133652d3135, 0x30, 0x30, 0x30, 0x30, 0x30, 0x392e3039323732363537313638303033652d3134, 0x30, 0x30, 0x30, 0x30],
  [0x2d302e353530303030303030303030303030, 0x2d302e30363636363636363636363636363637, 0x302e30353030303030303030303030303030, 0x302e30313636363636363636363636363637, 0x2d302e30333333333333333333333333333333, 0x302e30313432383537313432383537313433, 0x2d312e3034303833343038353538363038652d3137, 0x30, 0x2d382e3637333631373337393838343034652d3138, 0x312e3338373737383738303738313435652d3137, 0x312e3034303833343038353538363038652d3137, 0x30, 0x30, 0x2d312e3934323839303239333039343032652d3136, 0x2d352e3535313131353132333132353738652d3137, 0x2d382e3838313738343139373030313235652d3136, 0x2d342e3434303839323039383530303633652d3136, 0x2d312e3737363335363833393430303235652d3135, 0x30, 0x332e3535323731333637383830303530652d3135, 0x2d382e3838313738343139373030313235652d3135, 0x2d322e3834323137303934333034303430652d3134, 0x2d312e3839343833383435323830393437652d3134, 0x312e3133363836383337373231363136652d3133, 0x2d372e3634393433363633393636373333652d3134, 0x342e3535313931343430303936333134652d3134, 0x322e3336373839373534343730383334652d3135, 0x30, 0x30, 0x30],
  [0x302e363030303030303030303030303030, 0x302e30353030303030303030303030303030, 0x2d302e363030303030303030303030303030, 0x302e30353030303030303030303030303030, 0x30, 0x2d302e30323835373134323835373134323836, 0x30, 0x30, 0x30, 0x30, 0x30, 0x30, 0x30, 0x2d312e3636353333343533363933373733652d3136, 0x30, 0x2d372e3231363434393636303036333532652d3136, 0x30, 0x30, 0x30, 0x372e3939333630353737373330313133652d3135, 0x30, 0x30, 0x30, 0x30, 0x30, 0x30, 0x30, 0x30, 0x30, 0x30],
  [0x2d302e30353030303030303030303030303030, 0x302e30313636363636363636363636363637, 0x302e353530303030303030303030303030, 0x2d302e30363636363636363636363636363637, 0x302e30333333333333333333333333333333, 0x302e30313432383537313432383537313433, 0x2d312e3733343732333437353937363831652d3138, 0x30, 0x2d312e3034303833343038353538363038652d3137, 0x30, 0x312e3338373737383738303738313435652d3137, 0x30, 0x30, 0x2d312e3131303232333032343632353136652d3136, 0x30, 0x2d382e3838313738343139373030313235652d3136, 0x2d322e3232303434363034393235303331652d3136, 0x30, 0x382e3838313738343139373030313235652d3136, 0x312e3036353831343130333634303135652d3134, 0x2d392e3437333332343930323330393334652d3135, 0x2d322e3834323137303934333034303430652d3134, 0x2d312e3737363335363833393430303235652d3134, 0x30, 0x312e3531383738353039373638373231652d3133, 0x2d342e3039323833373138303238303634652d3133, 0x30, 0x30, 0x372e3537393138303333383839303237652d3134, 0x2d372e3237353935373631343138333433652d3132],
  [0x30, 0x2d302e30333333333333333333333333333334, 0x30, 0x302e30333333333333333333333333333334, 0x2d342f313035, 0x30, 0x322f333135, 0x30, 0x30, 0x30, 0x30, 0x30, 0x30, 0x30, 0x30, 0x30, 0x30, 0x30, 0x30, 0x30, 0x30, 0x30, 0x30, 0x30, 0x30, 0x30, 0x30, 0x30, 0x30, 0x30],
  [0x302e30323835373134323835373134323836, 0x302e30313432383537313432383537313433, 0x2d302e30323835373134323835373134323837, 0x302e30313432383537313432383537313433, 0x30, 0x2d342f333135, 0x30, 0x322f363933, 0x30, 0x30, 0x30, 0x30, 0x30, 0x30, 0x30, 0x30, 0x30, 0x30, 0x30, 0x30, 0x30, 0x30, 0x30, 0x30, 0x30, 0x30, 0x30, 0x30, 0x30, 0x30],
  [0x30, 0x30, 0x30, 0x30, 0x322f333135, 0x30, 0x2d342f363933, 0x30, 0x322f31323837, 0x30, 0x30, 0x30, 0x30, 0x30, 0x30, 0x30, 0x30, 0x30, 0x30, 0x30, 0x30, 0x30, 0x30, 0x30, 0x30, 0x30, 0x30, 0x30, 0x30, 0x30],
  [0x30, 0x352e3535313131353132333132353738652d3137, 0x30, 0x30, 0x30, 0x322f363933, 0x30, 0x2d342f31323837, 0x30, 0x322f32313435, 0x30, 0x30, 0x30, 0x30, 0x30, 0x30, 0x30, 0x30, 0x30, 0x30, 0x30, 0x30, 0x30, 0x30, 0x30, 0x30, 0x30, 0x30, 0x30, 0x30],
  [0x342e3434303839323039383530303633652d3136, 0x2d312e3636353333343533363933373733652d3136, 0x30, 0x2d312e3131303232333032343632353136652d3136, 0x30, 0x30, 0x322f31323837, 0x30, 0x2d342f32313435, 0x30, 0x322f33333135, 0x30, 0x30, 0x30, 0x30, 0x30, 0x30, 0x30, 0x30, 0x30, 0x30, 0x30, 0x30, 0x30, 0x30, 0x30, 0x30, 0x30, 0x30, 0x30],
  [0x30, 0x30, 0x30, 0x2d312e3131303232333032343632353136652d3136, 0x30, 0x30, 0x30, 0x322f32313435, 0x30, 0x2d342f33333135, 0x30, 0x322f34383435, 0x30, 0x30, 0x30, 0x30, 0x30, 0x30, 0x30, 0x30, 0x30, 0x30, 0x30, 0x30, 0x30, 0x30, 0x30, 0x30, 0x30, 0x30],
  [0x30, 0x2d382e3838313738343139373030313235652d3136, 0x312e3737363335363833393430303235652d3135, 0x362e3636313333383134373735303934652d3136, 0x30, 0x30, 0x30, 0x30, 0x322f33333135, 0x30, 0x2d342f34383435, 0x30, 0x322f36373833, 0x30, 0x30, 0x30, 0x30, 0x30, 0x30, 0x30, 0x30, 0x30, 0x30, 0x30, 0x30, 0x30, 0x30, 0x30, 0x30, 0x30],
  [0x30, 0x30, 0x30, 0x30, 0x30, 0x30, 0x30, 0x30, 0x30, 0x322f34383435, 0x30, 0x2d342f36373833, 0x30, 0x322f39313737, 0x30, 0x30, 0x30, 0x30, 0x30, 0x30, 0x30, 0x30, 0x30, 0x30, 0x30, 0x30, 0x30, 0x30, 0x30, 0x30],
  [0x30, 0x2d312e3737363335363833393430303235652d3135, 0x30, 0x2d312e3737363335363833393430303235652d3135, 0x30, 0x30, 0x30, 0x30, 0x30, 0x30, 0x322f36373833, 0x30, 0x2d342f39313737, 0x30, 0x322f3132303735, 0x30, 0x30, 0x30, 0x30, 0x30, 0x30, 0x30, 0x30, 0x30, 0x30, 0x30, 0x30, 0x30, 0x30, 0x30],
  [0x312e3036353831343130333634303135652d3134, 0x2d312e3333323236373632393535303139652d3135, 0x312e3036353831343130333634303135652d3134, 0x332e3535323731333637383830303530652d3135, 0x30, 0x30, 0x30, 0x30, 0x30, 0x30, 0x30, 0x322f39313737, 0x30, 0x2d342f3132303735, 0x30, 0x322f3135353235, 0x30, 0x30, 0x30, 0x30, 0x30, 0x30, 0x30, 0x30, 0x30, 0x30, 0x30, 0x30, 0x30, 0x30],
  [0x30, 0x322e3636343533353235393130303338652d3134, 0x30, 0x2d312e3234333434393738373538303138652d3134, 0x30, 0x30, 0x30, 0x30, 0x30, 0x30, 0x30, 0x30, 0x322f3132303735, 0x30, 0x2d342f3135353235, 0x30, 0x322f3139353735, 0x30, 0x30, 0x30, 0x30, 0x30, 0x30, 0x30, 0x30, 0x30, 0x30, 0x30, 0x30, 0x30],
  [0x352e3638343334313838363038303830652d3134, 0x2d312e3432313038353437313532303230652d3134, 0x342e3631383532373738323434303635652d3134, 0x2d312e3432313038353437313532303230652d3134, 0x30, 0x30, 0x30, 0x30, 0x30, 0x30, 0x30, 0x30, 0x30, 0x322f3135353235, 0x30, 0x2d342f3139353735, 0x30, 0x322f3234323733, 0x30, 0x30, 0x30, 0x30, 0x30, 0x30, 0x30, 0x30, 0x30, 0x30, 0x30, 0x30],
  [0x30, 0x30, 0x30, 0x2d352e3638343334313838363038303830652d3134, 0x30, 0x30, 0x30, 0x30, 0x30, 0x30, 0x30, 0x30, 0x30, 0x30, 0x322f3139353735, 0x30, 0x2d342f3234323733, 0x30, 0x322f3239363637, 0x30, 0x30, 0x30, 0x30, 0x30, 0x30, 0x30, 0x30, 0x30, 0x30, 0x30],
  [0x30, 0x2d352e3638343334313838363038303830652d3134, 0x30, 0x30, 0x30, 0x30, 0x30, 0x30, 0x30, 0x30, 0x30, 0x30, 0x30, 0x30, 0x30, 0x322f3234323733, 0x30, 0x2d342f3239363637, 0x30, 0x322f3335383035, 0x30, 0x30, 0x30, 0x30, 0x30, 0x30, 0x30, 0x30, 0x30, 0x30],
  [0x30, 0x30, 0x30, 0x30, 0x30, 0x30, 0x30, 0x30, 0x30, 0x30, 0x30, 0x30, 0x30, 0x30, 0x30, 0x30, 0x322f3239363637, 0x30, 0x2d342f3335383035, 0x30, 0x322f3432373335, 0x30, 0x30, 0x30, 0x30, 0x30, 0x30, 0x30, 0x30, 0x30],
  [0x2d312e3235303535353231343933373738652d3132, 0x30, 0x2d312e3330373339383633333739383538652d3132, 0x322e3237333733363735343433323332652d3133, 0x30, 0x30, 0x30, 0x30, 0x30, 0x30, 0x30, 0x30, 0x30, 0x30, 0x30, 0x30, 0x30, 0x322f3335383035, 0x30, 0x2d342f3432373335, 0x30, 0x322f3530353035, 0x30, 0x30, 0x30, 0x30, 0x30, 0x30, 0x30, 0x30],
  [0x30, 0x312e3133363836383337373231363136652d3132, 0x30, 0x312e3231323830373633323130303532652d3132, 0x30, 0x30, 0x30, 0x30, 0x30, 0x30, 0x30, 0x30, 0x30, 0x30, 0x30, 0x30, 0x30, 0x30, 0x322f3432373335, 0x30, 0x2d342f3530353035, 0x30, 0x322f3539313633, 0x30, 0x30, 0x30, 0x30, 0x30, 0x30, 0x30],
  [0x30, 0x312e3133363836383337373231363136652d3132, 0x30, 0x312e3133363836383337373231363136652d3132, 0x30, 0x30, 0x30, 0x30, 0x30, 0x30, 0x30, 0x30, 0x30, 0x30, 0x30, 0x30, 0x30, 0x30, 0x30, 0x322f3530353035, 0x30, 0x2d342f3539313633, 0x30, 0x322f3638373537, 0x30, 0x30, 0x30, 0x30, 0x30, 0x30],
  [0x30, 0x392e3730313132383738393137343632652d3132, 0x30, 0x322e3237333733363735343433323332652d3132, 0x30, 0x30, 0x30, 0x30, 0x30, 0x30, 0x30, 0x30, 0x30, 0x30, 0x30, 0x30, 0x30, 0x30, 0x30, 0x30, 0x322f3539313633, 0x30, 0x2d342f3638373537, 0x30, 0x322f3739333335, 0x30, 0x30, 0x30, 0x30, 0x30],
  [0x30, 0x2d312e3435353139313532323833363639652d3131, 0x332e3639343832323232353935323532652d3133, 0x30, 0x30, 0x30, 0x30, 0x30, 0x30, 0x30, 0x30, 0x30, 0x30, 0x30, 0x30, 0x30, 0x30, 0x30, 0x30, 0x30, 0x30, 0x322f3638373537, 0x30, 0x2d342f3739333335, 0x30, 0x322f3930393435, 0x30, 0x30, 0x30, 0x30],
  [0x30, 0x322e3839313930383933343534333631652d3131, 0x30, 0x322e3931303338333034353637333337652d3131, 0x30, 0x30, 0x30, 0x30, 0x30, 0x30, 0x30, 0x30, 0x30, 0x30, 0x30, 0x30, 0x30, 0x30, 0x30, 0x30, 0x30, 0x30, 0x322f3739333335, 0x30, 0x2d342f3930393435, 0x30, 0x322f313033363335, 0x30, 0x30, 0x30],
  [0x30, 0x2d322e3839393031343336313930313231652d3132, 0x30, 0x352e3532393739383834313035323938652d3131, 0x30, 0x30, 0x30, 0x30, 0x30, 0x30, 0x30, 0x30, 0x30, 0x30, 0x30, 0x30, 0x30, 0x30, 0x30, 0x30, 0x30, 0x30, 0x30, 0x322f3930393435, 0x30, 0x2d342f313033363335, 0x30, 0x322f313137343533, 0x30, 0x30],
  [0x392e3331333232353734363135343739652d3130, 0x322e3332383330363433363533383730652d3130, 0x30, 0x322e3332383330363433363533383730652d3130, 0x30, 0x30, 0x30, 0x30, 0x30, 0x30, 0x30, 0x30, 0x30, 0x30, 0x30, 0x30, 0x30, 0x30, 0x30, 0x30, 0x30, 0x30, 0x30, 0x30, 0x322f313033363335, 0x30, 0x2d342f313137343533, 0x30, 0x322f313332343437, 0x30],
  [0x30, 0x30, 0x30, 0x30, 0x30, 0x30, 0x30, 0x30, 0x30, 0x30, 0x30, 0x30, 0x30, 0x30, 0x30, 0x30, 0x30, 0x30, 0x30, 0x30, 0x30, 0x30, 0x30, 0x30, 0x30, 0x322f313137343533, 0x30, 0x2d342f313332343437, 0x30, 0x322f313438363635],
  [0x2d332e3732353239303239383436313931652d39, 0x342e3635363631323837333037373339652d3130, 0x30, 0x30, 0x30, 0x30, 0x30, 0x30, 0x30, 0x30, 0x30, 0x30, 0x30, 0x30, 0x30, 0x30, 0x30, 0x30, 0x30, 0x30, 0x30, 0x30, 0x30, 0x30, 0x30, 0x30, 0x322f313332343437, 0x30, 0x2d342f313438363635, 0x30],
  [0x2d372e3435303538303539363932333833652d39, 0x30, 0x30, 0x2d392e3331333232353734363135343739652d3130, 0x30, 0x30, 0x30, 0x30, 0x30, 0x30, 0x30, 0x30, 0x30, 0x30, 0x30, 0x30, 0x30, 0x30, 0x30, 0x30, 0x30, 0x30, 0x30, 0x30, 0x30, 0x30, 0x30, 0x322f313438363635, 0x30, 0x2d342f313636313535]]

end Composipy
