/-!
Generated by tools/gen_tables.py from pre_integrated_component/_ii_F.py.
Every entry is the verbatim text of the shipped dictionary, packed base 256 (see `unpack`).
-/

namespace Composipy

/-- `ii_FXI_FXI`, row `i`, column `k`. [_ii_F.py:1814-2715] -/
def text_FXI_FXI : List (List Nat) := [
  [0x302e363030303030303030303030303030, 0x302e30353030303030303030303030303030, 0x2d302e363030303030303030303030303030, 0x302e30353030303030303030303030303030, 0x30, 0x2d302e30323835373134323835373134323836, 0x30, 0x30, 0x30, 0x30, 0x30, 0x30, 0x30, 0x322e3636343533353235393130303338652d3135, 0x30, 0x312e3432313038353437313532303230652d3134, 0x30, 0x30, 0x30, 0x2d372e3130353432373335373630313030652d3134, 0x30, 0x30, 0x30, 0x30, 0x30, 0x2d312e3435363631323630383330383231652d3132, 0x30, 0x30, 0x30, 0x30],
  [0x302e30353030303030303030303030303030, 0x302e30363636363636363636363636363637, 0x2d302e30353030303030303030303030303030, 0x2d302e30313636363636363636363636363637, 0x302e30333333333333333333333333333333, 0x2d302e30313432383537313432383537313433, 0x30, 0x2d312e3338373737383738303738313435652d3137, 0x342e3136333333363334323334343334652d3137, 0x2d352e3535313131353132333132353738652d3137, 0x2d312e3435373136373731393832303532652d3136, 0x30, 0x30, 0x2d332e3333303636393037333837353437652d3136, 0x2d382e3838313738343139373030313235652d3136, 0x30, 0x2d332e3535323731333637383830303530652d3135, 0x30, 0x30, 0x2d382e3532363531323832393132313230652d3134, 0x312e3536333139343031383637323232652d3133, 0x2d382e3532363531323832393132313230652d3134, 0x332e3033313633373434313038363539652d3133, 0x2d392e3039343934373031373732393238652d3133, 0x30, 0x30, 0x312e3231323635383434353838313539652d3132, 0x30, 0x30, 0x30],
  [0x2d302e363030303030303030303030303030, 0x2d302e30353030303030303030303030303030, 0x302e363030303030303030303030303030, 0x2d302e30353030303030303030303030303030, 0x30, 0x302e30323835373134323835373134323836, 0x30, 0x30, 0x30, 0x30, 0x30, 0x30, 0x30, 0x322e3636343533353235393130303338652d3135, 0x30, 0x312e3135343633313934353631303136652d3134, 0x30, 0x30, 0x30, 0x2d372e3130353432373335373630313030652d3134, 0x30, 0x30, 0x30, 0x30, 0x30, 0x30, 0x30, 0x30, 0x30, 0x30],
  [0x302e30353030303030303030303030303030, 0x2d302e30313636363636363636363636363637, 0x2d302e30353030303030303030303030303030, 0x302e30363636363636363636363636363637, 0x2d302e30333333333333333333333333333333, 0x2d302e30313432383537313432383537313433, 0x30, 0x30, 0x332e3436393434363935313935333631652d3137, 0x2d312e3131303232333032343632353136652d3136, 0x2d312e3131303232333032343632353136652d3136, 0x30, 0x30, 0x342e3434303839323039383530303633652d3136, 0x382e3838313738343139373030313235652d3136, 0x30, 0x2d332e3535323731333637383830303530652d3135, 0x30, 0x30, 0x322e3438363839393537353136303335652d3134, 0x312e3531353833363036373737383035652d3133, 0x2d382e3532363531323832393132313230652d3134, 0x332e3132363338383033373334343434652d3133, 0x30, 0x30, 0x30, 0x30, 0x30, 0x322e3432353332303336313231303133652d3132, 0x312e3136343135333231383236393335652d3130],
  [0x30, 0x302e30333333333333333333333333333333, 0x30, 0x2d302e30333333333333333333333333333333, 0x342f313035, 0x30, 0x2d322f333135, 0x30, 0x30, 0x30, 0x30, 0x30, 0x30, 0x30, 0x30, 0x30, 0x30, 0x30, 0x30, 0x30, 0x30, 0x30, 0x30, 0x30, 0x30, 0x30, 0x30, 0x30, 0x30, 0x30],
  [0x2d302e30323835373134323835373134323836, 0x2d302e30313432383537313432383537313433, 0x302e30323835373134323835373134323836, 0x2d302e30313432383537313432383537313433, 0x30, 0x342f333135, 0x30, 0x2d322f363933, 0x30, 0x30, 0x30, 0x30, 0x30, 0x30, 0x30, 0x30, 0x30, 0x30, 0x30, 0x30, 0x30, 0x30, 0x30, 0x30, 0x30, 0x30, 0x30, 0x30, 0x30, 0x30],
  [0x30, 0x30, 0x30, 0x30, 0x2d322f333135, 0x30, 0x342f363933, 0x30, 0x2d322f31323837, 0x30, 0x30, 0x30, 0x30, 0x30, 0x30, 0x30, 0x30, 0x30, 0x30, 0x30, 0x30, 0x30, 0x30, 0x30, 0x30, 0x30, 0x30, 0x30, 0x30, 0x30],
  [0x30, 0x2d312e3338373737383738303738313435652d3137, 0x30, 0x30, 0x30, 0x2d322f363933, 0x30, 0x342f31323837, 0x30, 0x2d322f32313435, 0x30, 0x30, 0x30, 0x30, 0x30, 0x30, 0x30, 0x30, 0x30, 0x30, 0x30, 0x30, 0x30, 0x30, 0x30, 0x30, 0x30, 0x30, 0x30, 0x30],
  [0x30, 0x342e3136333333363334323334343334652d3137, 0x30, 0x332e3436393434363935313935333631652d3137, 0x30, 0x30, 0x2d322f31323837, 0x30, 0x342f32313435, 0x30, 0x2d322f33333135, 0x30, 0x30, 0x30, 0x30, 0x30, 0x30, 0x30, 0x30, 0x30, 0x30, 0x30, 0x30, 0x30, 0x30, 0x30, 0x30, 0x30, 0x30, 0x30],
  [0x30, 0x2d352e3535313131353132333132353738652d3137, 0x30, 0x2d312e3131303232333032343632353136652d3136, 0x30, 0x30, 0x30, 0x2d322f32313435, 0x30, 0x342f33333135, 0x30, 0x2d322f34383435, 0x30, 0x30, 0x30, 0x30, 0x30, 0x30, 0x30, 0x30, 0x30, 0x30, 0x30, 0x30, 0x30, 0x30, 0x30, 0x30, 0x30, 0x30],
  [0x30, 0x2d312e3435373136373731393832303532652d3136, 0x30, 0x2d312e3131303232333032343632353136652d3136, 0x30, 0x30, 0x30, 0x30, 0x2d322f33333135, 0x30, 0x342f34383435, 0x30, 0x2d322f36373833, 0x30, 0x30, 0x30, 0x30, 0x30, 0x30, 0x30, 0x30, 0x30, 0x30, 0x30, 0x30, 0x30, 0x30, 0x30, 0x30, 0x30],
  [0x30, 0x30, 0x30, 0x30, 0x30, 0x30, 0x30, 0x30, 0x30, 0x2d322f34383435, 0x30, 0x342f36373833, 0x30, 0x2d322f39313737, 0x30, 0x30, 0x30, 0x30, 0x30, 0x30, 0x30, 0x30, 0x30, 0x30, 0x30, 0x30, 0x30, 0x30, 0x30, 0x30],
  [0x30, 0x30, 0x30, 0x30, 0x30, 0x30, 0x30, 0x30, 0x30, 0x30, 0x2d322f36373833, 0x30, 0x342f39313737, 0x30, 0x2d322f3132303735, 0x30, 0x30, 0x30, 0x30, 0x30, 0x30, 0x30, 0x30, 0x30, 0x30, 0x30, 0x30, 0x30, 0x30, 0x30],
  [0x322e3636343533353235393130303338652d3135, 0x2d332e3333303636393037333837353437652d3136, 0x322e3636343533353235393130303338652d3135, 0x342e3434303839323039383530303633652d3136, 0x30, 0x30, 0x30, 0x30, 0x30, 0x30, 0x30, 0x2d322f39313737, 0x30, 0x342f3132303735, 0x30, 0x2d322f3135353235, 0x30, 0x30, 0x30, 0x30, 0x30, 0x30, 0x30, 0x30, 0x30, 0x30, 0x30, 0x30, 0x30, 0x30],
  [0x30, 0x2d382e3838313738343139373030313235652d3136, 0x30, 0x382e3838313738343139373030313235652d3136, 0x30, 0x30, 0x30, 0x30, 0x30, 0x30, 0x30, 0x30, 0x2d322f3132303735, 0x30, 0x342f3135353235, 0x30, 0x2d322f3139353735, 0x30, 0x30, 0x30, 0x30, 0x30, 0x30, 0x30, 0x30, 0x30, 0x30, 0x30, 0x30, 0x30],
  [0x312e3432313038353437313532303230652d3134, 0x30, 0x312e3135343633313934353631303136652d3134, 0x30, 0x30, 0x30, 0x30, 0x30, 0x30, 0x30, 0x30, 0x30, 0x30, 0x2d322f3135353235, 0x30, 0x342f3139353735, 0x30, 0x2d322f3234323733, 0x30, 0x30, 0x30, 0x30, 0x30, 0x30, 0x30, 0x30, 0x30, 0x30, 0x30, 0x30],
  [0x30, 0x2d332e3535323731333637383830303530652d3135, 0x30, 0x2d332e3535323731333637383830303530652d3135, 0x30, 0x30, 0x30, 0x30, 0x30, 0x30, 0x30, 0x30, 0x30, 0x30, 0x2d322f3139353735, 0x30, 0x342f3234323733, 0x30, 0x2d322f3239363637, 0x30, 0x30, 0x30, 0x30, 0x30, 0x30, 0x30, 0x30, 0x30, 0x30, 0x30],
  [0x30, 0x30, 0x30, 0x30, 0x30, 0x30, 0x30, 0x30, 0x30, 0x30, 0x30, 0x30, 0x30, 0x30, 0x30, 0x2d322f3234323733, 0x30, 0x342f3239363637, 0x30, 0x2d322f3335383035, 0x30, 0x30, 0x30, 0x30, 0x30, 0x30, 0x30, 0x30, 0x30, 0x30],
  [0x30, 0x30, 0x30, 0x30, 0x30, 0x30, 0x30, 0x30, 0x30, 0x30, 0x30, 0x30, 0x30, 0x30, 0x30, 0x30, 0x2d322f3239363637, 0x30, 0x342f3335383035, 0x30, 0x2d322f3432373335, 0x30, 0x30, 0x30, 0x30, 0x30, 0x30, 0x30, 0x30, 0x30],
  [0x2d372e3130353432373335373630313030652d3134, 0x2d382e3532363531323832393132313230652d3134, 0x2d372e3130353432373335373630313030652d3134, 0x322e3438363839393537353136303335652d3134, 0x30, 0x30, 0x30, 0x30, 0x30, 0x30, 0x30, 0x30, 0x30, 0x30, 0x30, 0x30, 0x30, 0x2d322f3335383035, 0x30, 0x342f3432373335, 0x30, 0x2d322f3530353035, 0x30, 0x30, 0x30, 0x30, 0x30, 0x30, 0x30, 0x30],
  [0x30, 0x312e3536333139343031383637323232652d3133, 0x30, 0x312e3531353833363036373737383035652d3133, 0x30, 0x30, 0x30, 0x30, 0x30, 0x30, 0x30, 0x30, 0x30, 0x30, 0x30, 0x30, 0x30, 0x30, 0x2d322f3432373335, 0x30, 0x342f3530353035, 0x30, 0x2d322f3539313633, 0x30, 0x30, 0x30, 0x30, 0x30, 0x30, 0x30],
  [0x30, 0x2d382e3532363531323832393132313230652d3134, 0x30, 0x2d382e3532363531323832393132313230652d3134, 0x30, 0x30, 0x30, 0x30, 0x30, 0x30, 0x30, 0x30, 0x30, 0x30, 0x30, 0x30, 0x30, 0x30, 0x30, 0x2d322f3530353035, 0x30, 0x342f3539313633, 0x30, 0x2d322f3638373537, 0x30, 0x30, 0x30, 0x30, 0x30, 0x30],
  [0x30, 0x332e3033313633373434313038363539652d3133, 0x30, 0x332e3132363338383033373334343434652d3133, 0x30, 0x30, 0x30, 0x30, 0x30, 0x30, 0x30, 0x30, 0x30, 0x30, 0x30, 0x30, 0x30, 0x30, 0x30, 0x30, 0x2d322f3539313633, 0x30, 0x342f3638373537, 0x30, 0x2d322f3739333335, 0x30, 0x30, 0x30, 0x30, 0x30],
  [0x30, 0x2d392e3039343934373031373732393238652d3133, 0x30, 0x30, 0x30, 0x30, 0x30, 0x30, 0x30, 0x30, 0x30, 0x30, 0x30, 0x30, 0x30, 0x30, 0x30, 0x30, 0x30, 0x30, 0x30, 0x2d322f3638373537, 0x30, 0x342f3739333335, 0x30, 0x2d322f3930393435, 0x30, 0x30, 0x30, 0x30],
  [0x30, 0x30, 0x30, 0x30, 0x30, 0x30, 0x30, 0x30, 0x30, 0x30, 0x30, 0x30, 0x30, 0x30, 0x30, 0x30, 0x30, 0x30, 0x30, 0x30, 0x30, 0x30, 0x2d322f3739333335, 0x30, 0x342f3930393435, 0x30, 0x2d322f313033363335, 0x30, 0x30, 0x30],
  [0x2d312e3435363631323630383330383231652d3132, 0x30, 0x30, 0x30, 0x30, 0x30, 0x30, 0x30, 0x30, 0x30, 0x30, 0x30, 0x30, 0x30, 0x30, 0x30, 0x30, 0x30, 0x30, 0x30, 0x30, 0x30, 0x30, 0x2d322f3930393435, 0x30, 0x342f313033363335, 0x30, 0x2d322f313137343533, 0x30, 0x30],
  [0x30, 0x312e3231323635383434353838313539652d3132, 0x30, 0x30, 0x30, 0x30, 0x30, 0x30, 0x30, 0x30, 0x30, 0x30, 0x30, 0x30, 0x30, 0x30, 0x30, 0x30, 0x30, 0x30, 0x30, 0x30, 0x30, 0x30, 0x2d322f313033363335, 0x30, 0x342f313137343533, 0x30, 0x2d322f313332343437, 0x30],
  [0x30, 0x30, 0x30, 0x30, 0x30, 0x30, 0x30, 0x30, 0x30, 0x30, 0x30, 0x30, 0x30, 0x30, 0x30, 0x30, 0x30, 0x30, 0x30, 0x30, 0x30, 0x30, 0x30, 0x30, 0x30, 0x2d322f313137343533, 0x30, 0x342f313332343437, 0x30, 0x2d322f313438363635],
  [0x30, 0x30, 0x30, 0x322e3432353332303336313231303133652d3132, 0x30, 0x30, 0x30, 0x30, 0x30, 0x30, 0x30, 0x30, 0x30, 0x30, 0x30, 0x30, 0x30, 0x30, 0x30, 0x30, 0x30, 0x30, 0x30, 0x30, 0x30, 0x30, 0x2d322f313332343437, 0x30, 0x342f313438363635, 0x30],
  [0x30, 0x30, 0x30, 0x312e3136343135333231383236393335652d3130, 0x30, 0x30, 0x30, 0x30, 0x30, 0x30, 0x30, 0x30, 0x30, 0x30, 0x30, 0x30, 0x30, 0x30, 0x30, 0x30, 0x30, 0x30, 0x30, 0x30, 0x30, 0x30, 0x30, 0x2d322f313438363635, 0x30, 0x342f313636313535]]

end Composipy
