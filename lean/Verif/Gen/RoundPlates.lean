import Verif.Gen.DocSsss
import Verif.Gen.DocCccc
import Verif.Gen.DocShear
import Verif.Gen.DocKasP
import Verif.Gen.DocKasC
import Verif.Gen.DocTestP
import Verif.Gen.DocTestC
import Verif.Lemmas.RoundedCert

/-! Written by tools/gen_round.py. -/

namespace Composipy

theorem ssss_round : ssssPlate.roundOk 10892623500000 ssssZero 634848482123880517026361339619372751702022482730155987883274879948134571835833201459199
    1089262350000000 ⟨9387979254235799, 4024692855524201, 9355752949915799, 24169728240000, 24169728240000, 16478864943236304, 0, 0, 0⟩ 452696077939554690420323020673294868183576487606074434637577373706153191184641060990412307232400
    1 ⟨0, 0, 0, 0, 0, 0, 1, 0, 0⟩ 2633261964525310540910100287464294585731976406148747078985168204503748283587170 (23 / 10 ^ 9) (91 / 10 ^ 12) = true := by decide +kernel

theorem cccc_round : ccccPlate.roundOk 588201669000000 ccccZero 80336919588690307961442407519976652292408769840530456511907204621368100597493324893388799
    58820166900000000 ⟨760426319593099719, 144888942798871236, 149692047198652784, 1305165324960000, 580073477760000, 593239137956506944, 0, 0, 0⟩ 2686883586588101364882843862360123200000000000000000000000000000000000000000000000000000000000000
    3 ⟨0, 0, 0, 0, 0, 0, 0, 2, 3⟩ 600257659012003200000000000000000000000000000000000000000000000000000000000000 (11 / 10 ^ 10) (30 / 10 ^ 13) = true := by decide +kernel

theorem shear_round : shearPlate.roundOk 10892623500000 shearZero 875022138379287830671190317783541624372149057516576765997100144417753143671666402918399
    1089262350000000 ⟨9387979254235799, 4024692855524201, 9355752949915799, 24169728240000, 24169728240000, 16478864943236304, 0, 0, 0⟩ 60389779386933624528193837114771200000000000000000000000000000000000000000000000000000000000000
    1 ⟨0, 0, 0, 0, 0, 0, 0, 0, 1⟩ 55582287659395200000000000000000000000000000000000000000000000000000000000000 (22 / 10 ^ 10) (14 / 10 ^ 13) = true := by decide +kernel

theorem kasP_round : kasPPlate.roundOk 417406097412109375 kasPZero 1178105302101903761646651029644267655017158283829798593517510207358130121971088044704432914431
    20870304870605468750 ⟨552157540013690902557, 314098781806305263943, 430642527793798177557, 91136259164919543750, 91136259164919543750, 1303792274750255900604, 0, 0, 0⟩ 29852111407211857062774244514027330574301022292915209206076217767832618479068594483456504803780048000
    2 ⟨0, 0, 0, 0, 0, 0, 2, 1, 0⟩ 7899785893575912732955296294487993241692171317299995920363939141000000000000000 (16 / 10 ^ 10) (28 / 10 ^ 13) = true := by decide +kernel

theorem kasC_round : kasCPlate.roundOk 417406097412109375 kasCZero 604369591144137529892677697181580199721297558731811959002531775412330121971088044704432914431
    20870304870605468750 ⟨552157540013690902557, 314098781806305263943, 430642527793798177557, 91136259164919543750, 91136259164919543750, 1303792274750255900604, 0, 0, 0⟩ 3738144851057768991868928465776744934400000000000000000000000000000000000000000000000000000000000000
    2 ⟨0, 0, 0, 0, 0, 0, 2, 1, 0⟩ 726320101542235200000000000000000000000000000000000000000000000000000000000000 (39 / 10 ^ 11) (51 / 10 ^ 14) = true := by decide +kernel

theorem testP_round : testPPlate.roundOk 10892623500000 testPZero 634848482123880517026361339619372751702022482730155987883274879948134571835833201459199
    1089262350000000 ⟨9387979254235799, 4024692855524201, 9355752949915799, 24169728240000, 24169728240000, 16478864943236304, 0, 0, 0⟩ 452696077939554690420323020673294868183576487606074434637577373706153191184641060990412307232400
    1 ⟨0, 0, 0, 0, 0, 0, 1, 1, 0⟩ 5266523929050621081820200574928589171463952812297494157970336409007496567174340 (23 / 10 ^ 9) (19 / 10 ^ 11) = true := by decide +kernel

theorem testC_round : testCPlate.roundOk 10892623500000 testCZero 875022138379287830671190317783541624372149057516576765997100144417753143671666402918399
    1089262350000000 ⟨9387979254235799, 4024692855524201, 9355752949915799, 24169728240000, 24169728240000, 16478864943236304, 0, 0, 0⟩ 60389779386933624528193837114771200000000000000000000000000000000000000000000000000000000000000
    1 ⟨0, 0, 0, 0, 0, 0, 1, 1, 0⟩ 484213401028156800000000000000000000000000000000000000000000000000000000000000 (22 / 10 ^ 10) (13 / 10 ^ 12) = true := by decide +kernel

end Composipy
