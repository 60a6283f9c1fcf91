/-!
Generated by tools/gen_tables.py from pre_integrated_component/_ii_F.py.
Every entry is the verbatim text of the shipped dictionary, packed base 256 (see `unpack`).
-/

namespace Composipy

/-- `ii_FXIXI_FXI`, row `i`, column `k`. [_ii_F.py:3622-4523] -/
def text_FXIXI_FXI : List (List Nat) := [
  [0x30, 0x2d302e323530303030303030303030303030, 0x30, 0x302e323530303030303030303030303030, 0x2d302e323030303030303030303030303030, 0x30, 0x30, 0x30, 0x30, 0x30, 0x30, 0x30, 0x30, 0x30, 0x352e3737333135393732383035303831652d3135, 0x30, 0x30, 0x30, 0x30, 0x30, 0x30, 0x30, 0x30, 0x30, 0x30, 0x30, 0x30, 0x30, 0x30, 0x30],
  [0x302e323530303030303030303030303030, 0x2d302e313235303030303030303030303030, 0x2d302e323530303030303030303030303030, 0x302e313235303030303030303030303030, 0x2d302e313030303030303030303030303030, 0x30, 0x30, 0x30, 0x30, 0x382e3332363637323638343638383637652d3137, 0x30, 0x30, 0x30, 0x30, 0x312e3131303232333032343632353136652d3135, 0x342e3838343938313330383335303639652d3135, 0x30, 0x30, 0x352e3638343334313838363038303830652d3134, 0x30, 0x30, 0x2d312e3432313038353437313532303230652d3133, 0x30, 0x30, 0x2d332e3633373937383830373039313731652d3132, 0x30, 0x30, 0x312e3531363030393534303132353635652d3133, 0x30, 0x322e3332383330363433363533383730652d3130],
  [0x30, 0x302e323530303030303030303030303030, 0x30, 0x2d302e323530303030303030303030303030, 0x302e323030303030303030303030303030, 0x30, 0x30, 0x30, 0x30, 0x30, 0x30, 0x30, 0x30, 0x30, 0x352e3332393037303531383230303735652d3135, 0x30, 0x30, 0x30, 0x30, 0x30, 0x30, 0x30, 0x30, 0x30, 0x30, 0x30, 0x30, 0x30, 0x30, 0x30],
  [0x2d302e323530303030303030303030303030, 0x2d302e313235303030303030303030303030, 0x302e323530303030303030303030303030, 0x302e313235303030303030303030303030, 0x2d302e313030303030303030303030303030, 0x30, 0x2d322e3737353535373536313536323839652d3137, 0x30, 0x30, 0x382e3332363637323638343638383637652d3137, 0x30, 0x30, 0x30, 0x30, 0x312e3131303232333032343632353136652d3135, 0x2d332e3535323731333637383830303530652d3135, 0x30, 0x30, 0x30, 0x30, 0x30, 0x2d312e3531363030393534303132353635652d3133, 0x30, 0x30, 0x30, 0x30, 0x30, 0x30, 0x30, 0x322e3332383330363433363533383730652d3130],
  [0x302e323030303030303030303030303030, 0x302e313030303030303030303030303030, 0x2d302e323030303030303030303030303030, 0x302e313030303030303030303030303030, 0x30, 0x2d322f3335, 0x30, 0x30, 0x30, 0x30, 0x30, 0x30, 0x30, 0x30, 0x30, 0x30, 0x30, 0x30, 0x30, 0x30, 0x30, 0x30, 0x30, 0x30, 0x30, 0x30, 0x30, 0x30, 0x30, 0x30],
  [0x30, 0x30, 0x30, 0x30, 0x322f3335, 0x30, 0x2d322f3633, 0x30, 0x30, 0x30, 0x30, 0x30, 0x30, 0x30, 0x30, 0x30, 0x30, 0x30, 0x30, 0x30, 0x30, 0x30, 0x30, 0x30, 0x30, 0x30, 0x30, 0x30, 0x30, 0x30],
  [0x30, 0x30, 0x30, 0x30, 0x30, 0x322f3633, 0x30, 0x2d322f3939, 0x30, 0x30, 0x30, 0x30, 0x30, 0x30, 0x30, 0x30, 0x30, 0x30, 0x30, 0x30, 0x30, 0x30, 0x30, 0x30, 0x30, 0x30, 0x30, 0x30, 0x30, 0x30],
  [0x30, 0x30, 0x30, 0x30, 0x30, 0x30, 0x322f3939, 0x30, 0x2d322f313433, 0x30, 0x30, 0x30, 0x30, 0x30, 0x30, 0x30, 0x30, 0x30, 0x30, 0x30, 0x30, 0x30, 0x30, 0x30, 0x30, 0x30, 0x30, 0x30, 0x30, 0x30],
  [0x30, 0x30, 0x30, 0x30, 0x30, 0x30, 0x30, 0x322f313433, 0x30, 0x2d322f313935, 0x30, 0x30, 0x30, 0x30, 0x30, 0x30, 0x30, 0x30, 0x30, 0x30, 0x30, 0x30, 0x30, 0x30, 0x30, 0x30, 0x30, 0x30, 0x30, 0x30],
  [0x30, 0x362e3636313333383134373735303934652d3136, 0x30, 0x362e3130363232363633353433383336652d3136, 0x30, 0x30, 0x30, 0x30, 0x322f313935, 0x30, 0x2d322f323535, 0x30, 0x30, 0x30, 0x30, 0x30, 0x30, 0x30, 0x30, 0x30, 0x30, 0x30, 0x30, 0x30, 0x30, 0x30, 0x30, 0x30, 0x30, 0x30],
  [0x30, 0x30, 0x30, 0x30, 0x30, 0x30, 0x30, 0x30, 0x30, 0x322f323535, 0x30, 0x2d322f333233, 0x30, 0x30, 0x30, 0x30, 0x30, 0x30, 0x30, 0x30, 0x30, 0x30, 0x30, 0x30, 0x30, 0x30, 0x30, 0x30, 0x30, 0x30],
  [0x30, 0x30, 0x30, 0x30, 0x30, 0x30, 0x30, 0x30, 0x30, 0x30, 0x322f333233, 0x30, 0x2d322f333939, 0x30, 0x30, 0x30, 0x30, 0x30, 0x30, 0x30, 0x30, 0x30, 0x30, 0x30, 0x30, 0x30, 0x30, 0x30, 0x30, 0x30],
  [0x30, 0x30, 0x30, 0x30, 0x30, 0x30, 0x30, 0x30, 0x30, 0x30, 0x30, 0x322f333939, 0x30, 0x2d322f343833, 0x30, 0x30, 0x30, 0x30, 0x30, 0x30, 0x30, 0x30, 0x30, 0x30, 0x30, 0x30, 0x30, 0x30, 0x30, 0x30],
  [0x30, 0x30, 0x30, 0x30, 0x30, 0x30, 0x30, 0x30, 0x30, 0x30, 0x30, 0x30, 0x322f343833, 0x30, 0x2d322f353735, 0x30, 0x30, 0x30, 0x30, 0x30, 0x30, 0x30, 0x30, 0x30, 0x30, 0x30, 0x30, 0x30, 0x30, 0x30],
  [0x322e3834323137303934333034303430652d3134, 0x312e3036353831343130333634303135652d3134, 0x322e3834323137303934333034303430652d3134, 0x312e3036353831343130333634303135652d3134, 0x30, 0x30, 0x30, 0x30, 0x30, 0x30, 0x30, 0x30, 0x30, 0x322f353735, 0x30, 0x2d322f363735, 0x30, 0x30, 0x30, 0x30, 0x30, 0x30, 0x30, 0x30, 0x30, 0x30, 0x30, 0x30, 0x30, 0x30],
  [0x30, 0x332e3535323731333637383830303530652d3134, 0x30, 0x30, 0x30, 0x30, 0x30, 0x30, 0x30, 0x30, 0x30, 0x30, 0x30, 0x30, 0x322f363735, 0x30, 0x2d322f373833, 0x30, 0x30, 0x30, 0x30, 0x30, 0x30, 0x30, 0x30, 0x30, 0x30, 0x30, 0x30, 0x30],
  [0x30, 0x30, 0x30, 0x30, 0x30, 0x30, 0x30, 0x30, 0x30, 0x30, 0x30, 0x30, 0x30, 0x30, 0x30, 0x322f373833, 0x30, 0x2d322f383939, 0x30, 0x30, 0x30, 0x30, 0x30, 0x30, 0x30, 0x30, 0x30, 0x30, 0x30, 0x30],
  [0x30, 0x30, 0x30, 0x30, 0x30, 0x30, 0x30, 0x30, 0x30, 0x30, 0x30, 0x30, 0x30, 0x30, 0x30, 0x30, 0x322f383939, 0x30, 0x2d322f31303233, 0x30, 0x30, 0x30, 0x30, 0x30, 0x30, 0x30, 0x30, 0x30, 0x30, 0x30],
  [0x30, 0x342e3534373437333530383836343634652d3133, 0x30, 0x30, 0x30, 0x30, 0x30, 0x30, 0x30, 0x30, 0x30, 0x30, 0x30, 0x30, 0x30, 0x30, 0x30, 0x322f31303233, 0x30, 0x2d322f31313535, 0x30, 0x30, 0x30, 0x30, 0x30, 0x30, 0x30, 0x30, 0x30, 0x30],
  [0x30, 0x30, 0x30, 0x30, 0x30, 0x30, 0x30, 0x30, 0x30, 0x30, 0x30, 0x30, 0x30, 0x30, 0x30, 0x30, 0x30, 0x30, 0x322f31313535, 0x30, 0x2d322f31323935, 0x30, 0x30, 0x30, 0x30, 0x30, 0x30, 0x30, 0x30, 0x30],
  [0x30, 0x30, 0x30, 0x30, 0x30, 0x30, 0x30, 0x30, 0x30, 0x30, 0x30, 0x30, 0x30, 0x30, 0x30, 0x30, 0x30, 0x30, 0x30, 0x322f31323935, 0x30, 0x2d322f31343433, 0x30, 0x30, 0x30, 0x30, 0x30, 0x30, 0x30, 0x30],
  [0x30, 0x322e3530313131303432393837353535652d3132, 0x30, 0x322e3432353238323139373239333635652d3132, 0x30, 0x30, 0x30, 0x30, 0x30, 0x30, 0x30, 0x30, 0x30, 0x30, 0x30, 0x30, 0x30, 0x30, 0x30, 0x30, 0x322f31343433, 0x30, 0x2d322f31353939, 0x30, 0x30, 0x30, 0x30, 0x30, 0x30, 0x30],
  [0x30, 0x30, 0x30, 0x30, 0x30, 0x30, 0x30, 0x30, 0x30, 0x30, 0x30, 0x30, 0x30, 0x30, 0x30, 0x30, 0x30, 0x30, 0x30, 0x30, 0x30, 0x322f31353939, 0x30, 0x2d322f31373633, 0x30, 0x30, 0x30, 0x30, 0x30, 0x30],
  [0x30, 0x30, 0x30, 0x30, 0x30, 0x30, 0x30, 0x30, 0x30, 0x30, 0x30, 0x30, 0x30, 0x30, 0x30, 0x30, 0x30, 0x30, 0x30, 0x30, 0x30, 0x30, 0x322f31373633, 0x30, 0x2d322f31393335, 0x30, 0x30, 0x30, 0x30, 0x30],
  [0x30, 0x322e3931303338333034353637333337652d3131, 0x30, 0x30, 0x30, 0x30, 0x30, 0x30, 0x30, 0x30, 0x30, 0x30, 0x30, 0x30, 0x30, 0x30, 0x30, 0x30, 0x30, 0x30, 0x30, 0x30, 0x30, 0x322f31393335, 0x30, 0x2d322f32313135, 0x30, 0x30, 0x30, 0x30],
  [0x30, 0x30, 0x30, 0x30, 0x30, 0x30, 0x30, 0x30, 0x30, 0x30, 0x30, 0x30, 0x30, 0x30, 0x30, 0x30, 0x30, 0x30, 0x30, 0x30, 0x30, 0x30, 0x30, 0x30, 0x322f32313135, 0x30, 0x2d322f32333033, 0x30, 0x30, 0x30],
  [0x30, 0x30, 0x30, 0x30, 0x30, 0x30, 0x30, 0x30, 0x30, 0x30, 0x30, 0x30, 0x30, 0x30, 0x30, 0x30, 0x30, 0x30, 0x30, 0x30, 0x30, 0x30, 0x30, 0x30, 0x30, 0x322f32333033, 0x30, 0x2d322f32343939, 0x30, 0x30],
  [0x30, 0x342e3835303637353431363838393737652d3132, 0x30, 0x30, 0x30, 0x30, 0x30, 0x30, 0x30, 0x30, 0x30, 0x30, 0x30, 0x30, 0x30, 0x30, 0x30, 0x30, 0x30, 0x30, 0x30, 0x30, 0x30, 0x30, 0x30, 0x30, 0x322f32343939, 0x30, 0x2d322f32373033, 0x30],
  [0x30, 0x30, 0x2d332e3732353239303239383436313931652d39, 0x30, 0x30, 0x30, 0x30, 0x30, 0x30, 0x30, 0x30, 0x30, 0x30, 0x30, 0x30, 0x30, 0x30, 0x30, 0x30, 0x30, 0x30, 0x30, 0x30, 0x30, 0x30, 0x30, 0x30, 0x322f32373033, 0x30, 0x2d322f32393135],
  [0x30, 0x2d332e3732353239303239383436313931652d39, 0x30, 0x2d332e3732353239303239383436313931652d39, 0x30, 0x30, 0x30, 0x30, 0x30, 0x30, 0x30, 0x30, 0x30, 0x30, 0x30, 0x30, 0x30, 0x30, 0x30, 0x30, 0x30, 0x30, 0x30, 0x30, 0x30, 0x30, 0x30, 0x30, 0x322f32393135, 0x30]]

end Composipy
