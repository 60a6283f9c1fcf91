/-!
Generated by tools/gen_tables.py from pre_integrated_component/_ii_F.py.
Every entry is the verbatim text of the shipped dictionary, packed base 256 (see `unpack`).
-/

namespace Composipy

/-- `ii_FF`, row `i`, column `k`. [_ii_F.py:6-907] -/
def text_FF : List (List Nat) := [
  [0x302e373432383537313432383537313433, 0x302e313034373631393034373631393035, 0x302e323537313432383537313432383537, 0x2d302e30363139303437363139303437363139, 0x302e30363636363636363636363636363637, 0x2d302e30313236393834313236393834313237, 0x312e3034303833343038353538363038652d3137, 0x302e303030323838363030323838363030323833, 0x2d312e3338373737383738303738313435652d3137, 0x2d342e3136333333363334323334343334652d3137, 0x30, 0x312e3131303232333032343632353136652d3136, 0x30, 0x2d322e3737353535373536313536323839652d3136, 0x2d382e3838313738343139373030313235652d3136, 0x30, 0x2d382e3838313738343139373030313235652d3136, 0x312e3737363335363833393430303235652d3135, 0x30, 0x2d312e3432313038353437313532303230652d3134, 0x392e3437353035393632353738353332652d3135, 0x322e3730383934343138303038353338652d3134, 0x2d322e3632393030383132323331323337652d3133, 0x312e3731393435373930393338383231652d3133, 0x2d352e3438383934323633333734363737652d3133, 0x2d382e3532363531323832393132313230652d3133, 0x30, 0x332e3633373932333239353934303438652d3133, 0x372e3432373534313232303936313233652d3132, 0x2d322e3931303338333034353637333337652d3131],
  [0x302e313034373631393034373631393035, 0x302e30313930343736313930343736313930, 0x302e30363139303437363139303437363139, 0x2d302e30313432383537313432383537313433, 0x302e30313432383537313432383537313433, 0x2d302e3030313538373330313538373330313538, 0x2d302e303030353239313030353239313030353238, 0x302e303030313434333030313434333030313338, 0x30, 0x382e3637333631373337393838343034652d3138, 0x362e3933383839333930333930373233652d3138, 0x2d322e3737353535373536313536323839652d3137, 0x312e3338373737383738303738313435652d3137, 0x382e3332363637323638343638383637652d3137, 0x30, 0x2d322e3737353535373536313536323839652d3136, 0x2d342e3434303839323039383530303633652d3136, 0x2d332e3838353738303538363138383035652d3136, 0x312e3737363335363833393430303235652d3135, 0x2d332e3939363830323838383635303536652d3135, 0x332e3535323731333637383830303530652d3135, 0x2d312e3235343535323031373832363433652d3134, 0x30, 0x2d342e3135363734343339333133353633652d3134, 0x2d322e3036393435353731373930313239652d3133, 0x2d322e3037383333373530323039383239652d3133, 0x322e3034363431383539303134303332652d3133, 0x322e3535373935333834383733363336652d3132, 0x30, 0x312e3231323635393538343239333837652d3132],
  [0x302e323537313432383537313432383537, 0x302e30363139303437363139303437363139, 0x302e373432383537313432383537313433, 0x2d302e313034373631393034373631393035, 0x302e30363636363636363636363636363637, 0x302e30313236393834313236393834313237, 0x2d332e3436393434363935313935333631652d3138, 0x2d302e303030323838363030323838363030323833, 0x2d332e3436393434363935313935333631652d3137, 0x342e3638333735333338353133373338652d3137, 0x2d322e3737353535373536313536323839652d3137, 0x2d372e3937393732373938393439333331652d3137, 0x2d322e3232303434363034393235303331652d3136, 0x322e3232303434363034393235303331652d3136, 0x2d312e3131303232333032343632353136652d3136, 0x2d342e3434303839323039383530303633652d3136, 0x312e3333323236373632393535303139652d3135, 0x30, 0x30, 0x2d312e3232313234353332373038373637652d3134, 0x2d312e3839343636343938303436313837652d3134, 0x2d342e3236333235363431343536303630652d3134, 0x2d312e3439323133393734353039363231652d3133, 0x312e3737363335363833393430303235652d3133, 0x2d362e3035373337363832323335343835652d3133, 0x2d372e3638383031363838393737333035652d3133, 0x312e3831383938393430333534353836652d3132, 0x312e3432313038353437313532303230652d3134, 0x312e3531353833363036373737383035652d3133, 0x392e3039343934373031373732393238652d3133],
  [0x2d302e30363139303437363139303437363139, 0x2d302e30313432383537313432383537313433, 0x2d302e313034373631393034373631393035, 0x302e30313930343736313930343736313931, 0x2d302e30313432383537313432383537313433, 0x2d302e3030313538373330313538373330313538, 0x302e303030353239313030353239313030353235, 0x302e303030313434333030313434333030313338, 0x30, 0x362e3933383839333930333930373233652d3138, 0x30, 0x322e3737353535373536313536323839652d3137, 0x322e3038313636383137313137323137652d3137, 0x322e3737353535373536313536323839652d3137, 0x30, 0x30, 0x312e3830343131323431353031353838652d3136, 0x2d382e3332363637323638343638383637652d3136, 0x382e3838313738343139373030313235652d3136, 0x2d342e3434303839323039383530303633652d3136, 0x372e3939333630353737373330313133652d3135, 0x2d312e3935333939323532333334303238652d3134, 0x30, 0x2d342e3135363734343339333133353633652d3134, 0x2d312e3038333537373637323033343135652d3133, 0x372e3537393132363132383738313634652d3134, 0x30, 0x2d342e3534373437333530383836343634652d3133, 0x30, 0x312e3231323635393538343239333837652d3132],
  [0x302e30363636363636363636363636363637, 0x302e30313432383537313432383537313433, 0x302e30363636363636363636363636363637, 0x2d302e30313432383537313432383537313433, 0x342f333135, 0x30, 0x2d382f3130333935, 0x30, 0x322f3435303435, 0x30, 0x30, 0x30, 0x30, 0x30, 0x30, 0x30, 0x30, 0x30, 0x30, 0x30, 0x30, 0x30, 0x30, 0x30, 0x30, 0x30, 0x30, 0x30, 0x30, 0x30],
  [0x2d302e30313236393834313236393834313237, 0x2d302e3030313538373330313538373330313538, 0x302e30313236393834313236393834313237, 0x2d302e3030313538373330313538373330313538, 0x30, 0x342f33343635, 0x30, 0x2d382f3435303435, 0x30, 0x322f313335313335, 0x30, 0x30, 0x30, 0x30, 0x30, 0x30, 0x30, 0x30, 0x30, 0x30, 0x30, 0x30, 0x30, 0x30, 0x30, 0x30, 0x30, 0x30, 0x30, 0x30],
  [0x312e3034303833343038353538363038652d3137, 0x2d302e303030353239313030353239313030353238, 0x2d332e3436393434363935313935333631652d3138, 0x302e303030353239313030353239313030353235, 0x2d382f3130333935, 0x30, 0x342f3135303135, 0x30, 0x2d382f313335313335, 0x30, 0x322f333238313835, 0x30, 0x30, 0x30, 0x30, 0x30, 0x30, 0x30, 0x30, 0x30, 0x30, 0x30, 0x30, 0x30, 0x30, 0x30, 0x30, 0x30, 0x30, 0x30],
  [0x302e303030323838363030323838363030323833, 0x302e303030313434333030313434333030313338, 0x2d302e303030323838363030323838363030323833, 0x302e303030313434333030313434333030313338, 0x30, 0x2d382f3435303435, 0x30, 0x342f3435303435, 0x30, 0x2d382f333238313835, 0x30, 0x322f363932383335, 0x30, 0x30, 0x30, 0x30, 0x30, 0x30, 0x30, 0x30, 0x30, 0x30, 0x30, 0x30, 0x30, 0x30, 0x30, 0x30, 0x30, 0x30],
  [0x2d312e3338373737383738303738313435652d3137, 0x30, 0x2d332e3436393434363935313935333631652d3137, 0x30, 0x322f3435303435, 0x30, 0x2d382f313335313335, 0x30, 0x342f313039333935, 0x30, 0x2d382f363932383335, 0x30, 0x322f31333232363835, 0x30, 0x30, 0x30, 0x30, 0x30, 0x30, 0x30, 0x30, 0x30, 0x30, 0x30, 0x30, 0x30, 0x30, 0x30, 0x30, 0x30],
  [0x2d342e3136333333363334323334343334652d3137, 0x382e3637333631373337393838343034652d3138, 0x342e3638333735333338353133373338652d3137, 0x362e3933383839333930333930373233652d3138, 0x30, 0x322f313335313335, 0x30, 0x2d382f333238313835, 0x30, 0x342f323330393435, 0x30, 0x2d382f31333232363835, 0x30, 0x322f32333430313335, 0x30, 0x30, 0x30, 0x30, 0x30, 0x30, 0x30, 0x30, 0x30, 0x30, 0x30, 0x30, 0x30, 0x30, 0x30, 0x30],
  [0x30, 0x362e3933383839333930333930373233652d3138, 0x2d322e3737353535373536313536323839652d3137, 0x30, 0x30, 0x30, 0x322f333238313835, 0x30, 0x2d382f363932383335, 0x30, 0x342f343430383935, 0x30, 0x2d382f32333430313335, 0x30, 0x322f33393030323235, 0x30, 0x30, 0x30, 0x30, 0x30, 0x30, 0x30, 0x30, 0x30, 0x30, 0x30, 0x30, 0x30, 0x30, 0x30],
  [0x312e3131303232333032343632353136652d3136, 0x2d322e3737353535373536313536323839652d3137, 0x2d372e3937393732373938393439333331652d3137, 0x322e3737353535373536313536323839652d3137, 0x30, 0x30, 0x30, 0x322f363932383335, 0x30, 0x2d382f31333232363835, 0x30, 0x342f373830303435, 0x30, 0x2d382f33393030323235, 0x30, 0x322f36313934343735, 0x30, 0x30, 0x30, 0x30, 0x30, 0x30, 0x30, 0x30, 0x30, 0x30, 0x30, 0x30, 0x30, 0x30],
  [0x30, 0x312e3338373737383738303738313435652d3137, 0x2d322e3232303434363034393235303331652d3136, 0x322e3038313636383137313137323137652d3137, 0x30, 0x30, 0x30, 0x30, 0x322f31333232363835, 0x30, 0x2d382f32333430313335, 0x30, 0x342f31333030303735, 0x30, 0x2d382f36313934343735, 0x30, 0x322f39343534373235, 0x30, 0x30, 0x30, 0x30, 0x30, 0x30, 0x30, 0x30, 0x30, 0x30, 0x30, 0x30, 0x30],
  [0x2d322e3737353535373536313536323839652d3136, 0x382e3332363637323638343638383637652d3137, 0x322e3232303434363034393235303331652d3136, 0x322e3737353535373536313536323839652d3137, 0x30, 0x30, 0x30, 0x30, 0x30, 0x322f32333430313335, 0x30, 0x2d382f33393030323235, 0x30, 0x342f32303634383235, 0x30, 0x2d382f39343534373235, 0x30, 0x322f3133393536393735, 0x30, 0x30, 0x30, 0x30, 0x30, 0x30, 0x30, 0x30, 0x30, 0x30, 0x30, 0x30],
  [0x2d382e3838313738343139373030313235652d3136, 0x30, 0x2d312e3131303232333032343632353136652d3136, 0x30, 0x30, 0x30, 0x30, 0x30, 0x30, 0x30, 0x322f33393030323235, 0x30, 0x2d382f36313934343735, 0x30, 0x342f33313531353735, 0x30, 0x2d382f3133393536393735, 0x30, 0x322f3230303235323235, 0x30, 0x30, 0x30, 0x30, 0x30, 0x30, 0x30, 0x30, 0x30, 0x30, 0x30],
  [0x30, 0x2d322e3737353535373536313536323839652d3136, 0x2d342e3434303839323039383530303633652d3136, 0x30, 0x30, 0x30, 0x30, 0x30, 0x30, 0x30, 0x30, 0x322f36313934343735, 0x30, 0x2d382f39343534373235, 0x30, 0x342f34363532333235, 0x30, 0x2d382f3230303235323235, 0x30, 0x322f3238303335333135, 0x30, 0x30, 0x30, 0x30, 0x30, 0x30, 0x30, 0x30, 0x30, 0x30],
  [0x2d382e3838313738343139373030313235652d3136, 0x2d342e3434303839323039383530303633652d3136, 0x312e3333323236373632393535303139652d3135, 0x312e3830343131323431353031353838652d3136, 0x30, 0x30, 0x30, 0x30, 0x30, 0x30, 0x30, 0x30, 0x322f39343534373235, 0x30, 0x2d382f3133393536393735, 0x30, 0x342f36363735303735, 0x30, 0x2d382f3238303335333135, 0x30, 0x322f3338343138373635, 0x30, 0x30, 0x30, 0x30, 0x30, 0x30, 0x30, 0x30, 0x30],
  [0x312e3737363335363833393430303235652d3135, 0x2d332e3838353738303538363138383035652d3136, 0x30, 0x2d382e3332363637323638343638383637652d3136, 0x30, 0x30, 0x30, 0x30, 0x30, 0x30, 0x30, 0x30, 0x30, 0x322f3133393536393735, 0x30, 0x2d382f3230303235323235, 0x30, 0x342f39333435313035, 0x30, 0x2d382f3338343138373635, 0x30, 0x322f3531363636363135, 0x30, 0x30, 0x30, 0x30, 0x30, 0x30, 0x30, 0x30],
  [0x30, 0x312e3737363335363833393430303235652d3135, 0x30, 0x382e3838313738343139373030313235652d3136, 0x30, 0x30, 0x30, 0x30, 0x30, 0x30, 0x30, 0x30, 0x30, 0x30, 0x322f3230303235323235, 0x30, 0x2d382f3238303335333135, 0x30, 0x342f3132383036323535, 0x30, 0x2d382f3531363636363135, 0x30, 0x322f3638333333323635, 0x30, 0x30, 0x30, 0x30, 0x30, 0x30, 0x30],
  [0x2d312e3432313038353437313532303230652d3134, 0x2d332e3939363830323838383635303536652d3135, 0x2d312e3232313234353332373038373637652d3134, 0x2d342e3434303839323039383530303633652d3136, 0x30, 0x30, 0x30, 0x30, 0x30, 0x30, 0x30, 0x30, 0x30, 0x30, 0x30, 0x322f3238303335333135, 0x30, 0x2d382f3338343138373635, 0x30, 0x342f3137323232323035, 0x30, 0x2d382f3638333333323635, 0x30, 0x322f3839303430333135, 0x30, 0x30, 0x30, 0x30, 0x30, 0x30],
  [0x392e3437353035393632353738353332652d3135, 0x332e3535323731333637383830303530652d3135, 0x2d312e3839343636343938303436313837652d3134, 0x372e3939333630353737373330313133652d3135, 0x30, 0x30, 0x30, 0x30, 0x30, 0x30, 0x30, 0x30, 0x30, 0x30, 0x30, 0x30, 0x322f3338343138373635, 0x30, 0x2d382f3531363636363135, 0x30, 0x342f3232373737373535, 0x30, 0x2d382f3839303430333135, 0x30, 0x322f313134343830343035, 0x30, 0x30, 0x30, 0x30, 0x30],
  [0x322e3730383934343138303038353338652d3134, 0x2d312e3235343535323031373832363433652d3134, 0x2d342e3236333235363431343536303630652d3134, 0x2d312e3935333939323532333334303238652d3134, 0x30, 0x30, 0x30, 0x30, 0x30, 0x30, 0x30, 0x30, 0x30, 0x30, 0x30, 0x30, 0x30, 0x322f3531363636363135, 0x30, 0x2d382f3638333333323635, 0x30, 0x342f3239363830313035, 0x30, 0x2d382f313134343830343035, 0x30, 0x322f313435343231303535, 0x30, 0x30, 0x30, 0x30],
  [0x2d322e3632393030383132323331323337652d3133, 0x30, 0x2d312e3439323133393734353039363231652d3133, 0x30, 0x30, 0x30, 0x30, 0x30, 0x30, 0x30, 0x30, 0x30, 0x30, 0x30, 0x30, 0x30, 0x30, 0x30, 0x322f3638333333323635, 0x30, 0x2d382f3839303430333135, 0x30, 0x342f3338313630313335, 0x30, 0x2d382f313435343231303535, 0x30, 0x322f313832373038353035, 0x30, 0x30, 0x30],
  [0x312e3731393435373930393338383231652d3133, 0x2d342e3135363734343339333133353633652d3134, 0x312e3737363335363833393430303235652d3133, 0x2d342e3135363734343339333133353633652d3134, 0x30, 0x30, 0x30, 0x30, 0x30, 0x30, 0x30, 0x30, 0x30, 0x30, 0x30, 0x30, 0x30, 0x30, 0x30, 0x322f3839303430333135, 0x30, 0x2d382f313134343830343035, 0x30, 0x342f3438343733363835, 0x30, 0x2d382f313832373038353035, 0x30, 0x322f323237323731353535, 0x30, 0x30],
  [0x2d352e3438383934323633333734363737652d3133, 0x2d322e3036393435353731373930313239652d3133, 0x2d362e3035373337363832323335343835652d3133, 0x2d312e3038333537373637323033343135652d3133, 0x30, 0x30, 0x30, 0x30, 0x30, 0x30, 0x30, 0x30, 0x30, 0x30, 0x30, 0x30, 0x30, 0x30, 0x30, 0x30, 0x322f313134343830343035, 0x30, 0x2d382f313435343231303535, 0x30, 0x342f3630393032383335, 0x30, 0x2d382f323237323731353535, 0x30, 0x322f323830313235343035, 0x30],
  [0x2d382e3532363531323832393132313230652d3133, 0x2d322e3037383333373530323039383239652d3133, 0x2d372e3638383031363838393737333035652d3133, 0x372e3537393132363132383738313634652d3134, 0x30, 0x30, 0x30, 0x30, 0x30, 0x30, 0x30, 0x30, 0x30, 0x30, 0x30, 0x30, 0x30, 0x30, 0x30, 0x30, 0x30, 0x322f313435343231303535, 0x30, 0x2d382f313832373038353035, 0x30, 0x342f3735373537313835, 0x30, 0x2d382f323830313235343035, 0x30, 0x322f333432333735343935],
  [0x30, 0x322e3034363431383539303134303332652d3133, 0x312e3831383938393430333534353836652d3132, 0x30, 0x30, 0x30, 0x30, 0x30, 0x30, 0x30, 0x30, 0x30, 0x30, 0x30, 0x30, 0x30, 0x30, 0x30, 0x30, 0x30, 0x30, 0x30, 0x322f313832373038353035, 0x30, 0x2d382f323237323731353535, 0x30, 0x342f3933333735313335, 0x30, 0x2d382f333432333735343935, 0x30],
  [0x332e3633373932333239353934303438652d3133, 0x322e3535373935333834383733363336652d3132, 0x312e3432313038353437313532303230652d3134, 0x2d342e3534373437333530383836343634652d3133, 0x30, 0x30, 0x30, 0x30, 0x30, 0x30, 0x30, 0x30, 0x30, 0x30, 0x30, 0x30, 0x30, 0x30, 0x30, 0x30, 0x30, 0x30, 0x30, 0x322f323237323731353535, 0x30, 0x2d382f323830313235343035, 0x30, 0x342f313134313235313635, 0x30, 0x2d382f343135323231333435],
  [0x372e3432373534313232303936313233652d3132, 0x30, 0x312e3531353833363036373737383035652d3133, 0x30, 0x30, 0x30, 0x30, 0x30, 0x30, 0x30, 0x30, 0x30, 0x30, 0x30, 0x30, 0x30, 0x30, 0x30, 0x30, 0x30, 0x30, 0x30, 0x30, 0x30, 0x322f323830313235343035, 0x30, 0x2d382f333432333735343935, 0x30, 0x342f313338343037313135, 0x30],
  [0x2d322e3931303338333034353637333337652d3131, 0x312e3231323635393538343239333837652d3132, 0x392e3039343934373031373732393238652d3133, 0x312e3231323635393538343239333837652d3132, 0x30, 0x30, 0x30, 0x30, 0x30, 0x30, 0x30, 0x30, 0x30, 0x30, 0x30, 0x30, 0x30, 0x30, 0x30, 0x30, 0x30, 0x30, 0x30, 0x30, 0x30, 0x322f333432333735343935, 0x30, 0x2d382f343135323231333435, 0x30, 0x342f313636363533343635]]

end Composipy
