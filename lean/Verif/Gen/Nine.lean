/-!
Generated by tools/gen_nine.py; checked in Lemmas/NineCheck.lean.
-/

namespace Composipy

/-- Common denominator of the shipped integrals with indices below 14. -/
def nineDen : Nat := 20078358300000000000000000000000000000000

/-- The nine integrals of the pairs `(0, k)` times the common denominator. -/
def nine0 : List (List Int) := [
  [14915351880000002868336900000000000000000, -10039179150000000000000000000000000000000, -10039179150000000000000000000000000000000, 12047014980000000000000000000000000000000, -12047014980000000000000000000000000000000, -12047014980000000000000000000000000000000, 0, 0, 30117537450000000000000000000000000000000],
  [2103447060000004780561500000000000000000, -2007835830000000000000000000000000000000, 2007835830000000000000000000000000000000, 1003917915000000000000000000000000000000, -1003917915000000000000000000000000000000, -11043097065000000000000000000000000000000, -5019589575000000000000000000000000000000, 5019589575000000000000000000000000000000, 15058768725000000000000000000000000000000],
  [5163006419999997131663100000000000000000, -10039179150000000000000000000000000000000, 10039179150000000000000000000000000000000, -12047014980000000000000000000000000000000, 12047014980000000000000000000000000000000, 12047014980000000000000000000000000000000, 0, 0, -30117537450000000000000000000000000000000],
  [-1242945989999999904388770000000000000000, 2007835830000000000000000000000000000000, -2007835830000000000000000000000000000000, 1003917915000000000000000000000000000000, -1003917915000000000000000000000000000000, -1003917915000000000000000000000000000000, 5019589575000000000000000000000000000000, -5019589575000000000000000000000000000000, 15058768725000000000000000000000000000000],
  [1338557220000000669278610000000000000000, -1721002139999999713166310000000000000000, 1721002139999999713166310000000000000000, 0, 0, 0, -4015671660000000000000000000000000000000, 4015671660000000000000000000000000000000, 0],
  [-254963280000000031870410000000000000000, 0, 0, -573667380000000573667380000000000000000, 573667380000000573667380000000000000000, 573667380000000573667380000000000000000, 0, 0, 0],
  [208982397012501797324640, 63740819999999706792228000000000000000, -63740819999999706792228000000000000000, 0, 0, 0, 0, 0, 0],
  [5794619999999887555398900000000000000, 0, 0, 0, 0, 0, 0, 0, 0],
  [-278643196016671070935350, 0, 0, 0, 0, 8916582272533454191572900, 0, 0, 0],
  [-835929588050011204970220, 0, 2229145568133368567482800, 0, 0, 0, 0, 0, 0],
  [0, 0, 0, 0, 0, 0, 0, 0, 0],
  [2229145568133368567482800, 0, 0, 0, 0, 0, 0, 0, 0],
  [0, 0, 13374873408800171248180200, 0, 0, 0, 0, 0, 0],
  [-5572863920333401340348700, 0, 0, 53499493635200765306154000, -3343718352200032772865900, 213997974540802659657450000, 0, 0, 0]]

/-- The nine integrals of the pairs `(1, k)` times the common denominator. -/
def nine1 : List (List Int) := [
  [2103447060000004780561500000000000000000, 2007835830000000000000000000000000000000, -2007835830000000000000000000000000000000, 1003917915000000000000000000000000000000, -11043097065000000000000000000000000000000, -1003917915000000000000000000000000000000, 5019589575000000000000000000000000000000, -5019589575000000000000000000000000000000, 15058768725000000000000000000000000000000],
  [382444919999999043887700000000000000000, 0, 0, 1338557220000000669278610000000000000000, -1338557220000000669278610000000000000000, -1338557220000000669278610000000000000000, -2509794787500000000000000000000000000000, -2509794787500000000000000000000000000000, 10039179150000000000000000000000000000000],
  [1242945989999999904388770000000000000000, -2007835830000000000000000000000000000000, 2007835830000000000000000000000000000000, -1003917915000000000000000000000000000000, 1003917915000000000000000000000000000000, 1003917915000000000000000000000000000000, -5019589575000000000000000000000000000000, 5019589575000000000000000000000000000000, -15058768725000000000000000000000000000000],
  [-286833690000000286833690000000000000000, 334639305000000669278610000000000000000, -334639305000000669278610000000000000000, -334639305000000669278610000000000000000, 334639305000000669278610000000000000000, 334639305000000669278610000000000000000, 2509794787500000000000000000000000000000, -2509794787500000000000000000000000000000, 5019589575000000000000000000000000000000],
  [286833690000000286833690000000000000000, -191222459999999923511016000000000000000, 191222459999999722727433000000000000000, 669278609999999330721390000000000000000, -669278609999999330721390000000000000000, -669278610000001338557220000000000000000, -2007835830000000000000000000000000000000, 2007835830000000000000000000000000000000, 0],
  [-31870409999999853396114000000000000000, -95611229999999961755508000000000000000, 95611229999999961755508000000000000000, -286833690000000286833690000000000000000, 286833690000000286833690000000000000000, 286833690000000286833690000000000000000, 0, 0, 0],
  [-10623469999999977903182400000000000000, 31870410000000054179697000000000000000, -31870409999999853396114000000000000000, 0, -208982397012501797324640, 0, 0, 0, 0],
  [2897309999999873503445400000000000000, -104491198506251300229486, 139321598008335133900509, -278643196016671070935350, 0, 1114572784066680268069740, 0, 0, 0],
  [0, 69660799004167466558463, 0, 835929588050011204970220, -174151997510418967571532, -3343718352200032772865900, 0, 0, 0],
  [174151997510418967571532, -748853589294802122751620, 835929588050011204970220, -1114572784066680268069740, 278643196016671070935350, 0, 1671859176100020402104610, 13374873408800171248180200, 0],
  [139321598008335133900509, 383134394522921969597670, 835929588050011204970220, -2925753558175041225231600, 208982397012501797324640, -17833164545066888304787500, 0, 0, 0],
  [-557286392033340134034870, 0, 4458291136266717056607300, 0, 0, 0, 0, 0, 0],
  [278643196016671070935350, 742322889388160437667310, -6130150312366743482219400, 0, 0, -35666329090133776609575000, 0, 0, 0],
  [1671859176100020402104610, -2229145568133368567482800, -8916582272533454191572900, -6687436704400085624090100, -3901004744233374914736600, -26749746817600382653077000, 0, 0, 0]]

/-- The nine integrals of the pairs `(2, k)` times the common denominator. -/
def nine2 : List (List Int) := [
  [5163006419999997131663100000000000000000, 10039179150000000000000000000000000000000, -10039179150000000000000000000000000000000, -12047014980000000000000000000000000000000, 12047014980000000000000000000000000000000, 12047014980000000000000000000000000000000, 0, 0, -30117537450000000000000000000000000000000],
  [1242945989999999904388770000000000000000, 2007835830000000000000000000000000000000, -2007835830000000000000000000000000000000, -1003917915000000000000000000000000000000, 1003917915000000000000000000000000000000, 1003917915000000000000000000000000000000, 5019589575000000000000000000000000000000, -5019589575000000000000000000000000000000, -15058768725000000000000000000000000000000],
  [14915351880000002868336900000000000000000, 10039179150000000000000000000000000000000, 10039179150000000000000000000000000000000, 12047014980000000000000000000000000000000, -12047014980000000000000000000000000000000, -12047014980000000000000000000000000000000, 0, 0, 30117537450000000000000000000000000000000],
  [-2103447060000004780561500000000000000000, -2007835830000000000000000000000000000000, 2007835830000000000000000000000000000000, -1003917915000000000000000000000000000000, 1003917915000000000000000000000000000000, 11043097065000000000000000000000000000000, -5019589575000000000000000000000000000000, 5019589575000000000000000000000000000000, -15058768725000000000000000000000000000000],
  [1338557220000000669278610000000000000000, 1721002139999999713166310000000000000000, -1721002139999999713166310000000000000000, 0, 0, 0, 4015671660000000000000000000000000000000, -4015671660000000000000000000000000000000, 0],
  [254963280000000031870410000000000000000, 0, 0, 573667380000000573667380000000000000000, -573667380000000573667380000000000000000, -573667380000002581503210000000000000000, 0, 0, 0],
  [-69660799004167466558463, -63740819999999907575811000000000000000, 63740820000000710710143000000000000000, 0, 0, 0, 0, 0, 0],
  [-5794619999999887555398900000000000000, 0, 0, 0, 0, 0, 0, 0, 0],
  [-696607990041674665584630, 0, 0, 0, 0, 0, 0, 0, 0],
  [940420786556262103632540, 0, 1114572784066680268069740, 0, 0, 0, 0, 0, 0],
  [-557286392033340134034870, 0, 0, 0, 0, 35666329090133776609575000, 0, 0, 0],
  [-1602198377095853136329730, 0, 0, 0, 0, 0, 0, 0, 0],
  [-4458291136266717056607300, -2786431960166710709353500, -15604018976933539815663000, 0, 0, 0, 0, 0, 0],
  [4458291136266717056607300, 0, -35666329090133776609575000, 53499493635200765306154000, -3343718352200032772865900, 213997974540802659657450000, 0, 0, 0]]

/-- The nine integrals of the pairs `(3, k)` times the common denominator. -/
def nine3 : List (List Int) := [
  [-1242945989999999904388770000000000000000, -2007835830000000000000000000000000000000, 2007835830000000000000000000000000000000, 1003917915000000000000000000000000000000, -1003917915000000000000000000000000000000, -1003917915000000000000000000000000000000, -5019589575000000000000000000000000000000, 5019589575000000000000000000000000000000, 15058768725000000000000000000000000000000],
  [-286833690000000286833690000000000000000, -334639305000000669278610000000000000000, 334639305000000669278610000000000000000, -334639305000000669278610000000000000000, 334639305000000669278610000000000000000, 334639305000000669278610000000000000000, -2509794787500000000000000000000000000000, 2509794787500000000000000000000000000000, 5019589575000000000000000000000000000000],
  [-2103447060000004780561500000000000000000, 2007835830000000000000000000000000000000, -2007835830000000000000000000000000000000, -1003917915000000000000000000000000000000, 11043097065000000000000000000000000000000, 1003917915000000000000000000000000000000, 5019589575000000000000000000000000000000, -5019589575000000000000000000000000000000, -15058768725000000000000000000000000000000],
  [382444920000001051723530000000000000000, 0, 0, 1338557220000000669278610000000000000000, -1338557220000000669278610000000000000000, -1338557220000000669278610000000000000000, 2509794787500000000000000000000000000000, 2509794787500000000000000000000000000000, 10039179150000000000000000000000000000000],
  [-286833690000000286833690000000000000000, -191222459999999923511016000000000000000, 191222459999999722727433000000000000000, -669278609999999330721390000000000000000, 669278609999999330721390000000000000000, 669278610000001338557220000000000000000, -2007835830000000000000000000000000000000, 2007835830000000000000000000000000000000, 0],
  [-31870409999999853396114000000000000000, 95611229999999760971925000000000000000, -95611229999999760971925000000000000000, -286833690000000286833690000000000000000, 286833690000000286833690000000000000000, 286833690000000286833690000000000000000, 0, 0, 0],
  [10623469999999917668107500000000000000, 31870409999999853396114000000000000000, -31870410000000054179697000000000000000, 0, -34830399502083833671023, 0, -557286392033340134034870, 0, 0],
  [2897309999999873503445400000000000000, -104491198506251300229486, 417964794025005602485110, 0, 0, 0, 0, 0, 0],
  [0, 139321598008335133900509, 0, 696607990041674665584630, -208982397012501797324640, -2229145568133368567482800, 0, 0, 0],
  [139321598008335133900509, 278643196016671070935350, 557286392033340134034870, -2229145568133368567482800, 0, -2229145568133368567482800, 1671859176100020402104610, 12260300624733486964438800, 0],
  [0, -174151997510418967571532, 1114572784066680268069740, -2229145568133368567482800, 278643196016671070935350, 13374873408800171248180200, 0, 0, 0],
  [557286392033340134034870, 557286392033340134034870, 3065075156183371741109700, 0, 0, 0, 0, 0, 0],
  [417964794025005602485110, 557286392033340134034870, -1671859176100020402104610, 0, 0, -35666329090133776609575000, 0, 0, 0],
  [557286392033340134034870, -2786431960166710709353500, 0, 8916582272533454191572900, -2229145568133368567482800, 71332658180267553219150000, 0, 0, 0]]

/-- The nine integrals of the pairs `(4, k)` times the common denominator. -/
def nine4 : List (List Int) := [
  [1338557220000000669278610000000000000000, 1721002139999999713166310000000000000000, -1721002139999999713166310000000000000000, 0, 0, 0, 4015671660000000000000000000000000000000, -4015671660000000000000000000000000000000, 0],
  [286833690000000286833690000000000000000, 191222459999999722727433000000000000000, -191222459999999923511016000000000000000, 669278609999999330721390000000000000000, -669278610000001338557220000000000000000, -669278609999999330721390000000000000000, 2007835830000000000000000000000000000000, -2007835830000000000000000000000000000000, 0],
  [1338557220000000669278610000000000000000, -1721002139999999713166310000000000000000, 1721002139999999713166310000000000000000, 0, 0, 0, -4015671660000000000000000000000000000000, 4015671660000000000000000000000000000000, 0],
  [-286833690000000286833690000000000000000, 191222459999999722727433000000000000000, -191222459999999923511016000000000000000, -669278609999999330721390000000000000000, 669278610000001338557220000000000000000, 669278609999999330721390000000000000000, 2007835830000000000000000000000000000000, -2007835830000000000000000000000000000000, 0],
  [254963280000000000000000000000000000000, 0, 0, 764889840000000000000000000000000000000, -764889840000000000000000000000000000000, -764889840000000000000000000000000000000, 0, 0, 8031343320000000000000000000000000000000],
  [0, -127481640000000000000000000000000000000, 127481640000000000000000000000000000000, 0, 0, 0, -1147334760000000000000000000000000000000, 1147334760000000000000000000000000000000, 0],
  [-15452320000000000000000000000000000000, 0, 0, -127481640000000000000000000000000000000, 127481640000000000000000000000000000000, 127481640000000000000000000000000000000, 0, 0, 0],
  [0, 11589240000000000000000000000000000000, -11589240000000000000000000000000000000, 0, 0, 0, 0, 0, 0],
  [891480000000000000000000000000000000, 0, 0, 0, 0, 0, 0, 0, 0],
  [0, 0, 0, 0, 0, 0, 0, 0, 0],
  [0, 0, 0, 0, 0, 0, 0, 0, 0],
  [0, 0, 0, 0, 0, 0, 0, 0, 0],
  [0, 0, 0, 0, 0, 0, 0, 0, 0],
  [0, 0, 0, 0, 0, 0, 0, 0, 0]]

/-- The nine integrals of the pairs `(5, k)` times the common denominator. -/
def nine5 : List (List Int) := [
  [-254963280000000031870410000000000000000, 0, 0, -573667380000000573667380000000000000000, 573667380000000573667380000000000000000, 573667380000000573667380000000000000000, 0, 0, 0],
  [-31870409999999853396114000000000000000, 95611229999999961755508000000000000000, -95611229999999961755508000000000000000, -286833690000000286833690000000000000000, 286833690000000286833690000000000000000, 286833690000000286833690000000000000000, 0, 0, 0],
  [254963280000000031870410000000000000000, 0, 0, 573667380000000573667380000000000000000, -573667380000002581503210000000000000000, -573667380000000573667380000000000000000, 0, 0, 0],
  [-31870409999999853396114000000000000000, -95611229999999760971925000000000000000, 95611229999999760971925000000000000000, -286833690000000286833690000000000000000, 286833690000000286833690000000000000000, 286833690000000286833690000000000000000, 0, 0, 0],
  [0, 127481640000000000000000000000000000000, -127481640000000000000000000000000000000, 0, 0, 0, 1147334760000000000000000000000000000000, -1147334760000000000000000000000000000000, 0],
  [23178480000000000000000000000000000000, 0, 0, 254963280000000000000000000000000000000, -254963280000000000000000000000000000000, -254963280000000000000000000000000000000, 0, 0, 5736673800000000000000000000000000000000],
  [0, -34767720000000000000000000000000000000, 34767720000000000000000000000000000000, 0, 0, 0, -637408200000000000000000000000000000000, 637408200000000000000000000000000000000, 0],
  [-3565920000000000000000000000000000000, 0, 0, -57946200000000000000000000000000000000, 57946200000000000000000000000000000000, 57946200000000000000000000000000000000, 0, 0, 0],
  [0, 4457400000000000000000000000000000000, -4457400000000000000000000000000000000, 0, 0, 0, 0, 0, 0],
  [297160000000000000000000000000000000, 0, 0, 0, 0, 0, 0, 0, 0],
  [0, 0, 0, 0, 0, 0, 0, 0, 0],
  [0, 0, 0, 0, 0, 0, 0, 0, 0],
  [0, 0, 0, 0, 0, 0, 0, 0, 0],
  [0, 0, 0, 0, 0, 0, 0, 0, 0]]

/-- The nine integrals of the pairs `(6, k)` times the common denominator. -/
def nine6 : List (List Int) := [
  [208982397012501797324640, -63740819999999706792228000000000000000, 63740819999999706792228000000000000000, 0, 0, 0, 0, 0, 0],
  [-10623469999999977903182400000000000000, -31870409999999853396114000000000000000, 31870410000000054179697000000000000000, 0, 0, -208982397012501797324640, 0, 0, 0],
  [-69660799004167466558463, 63740820000000710710143000000000000000, -63740819999999907575811000000000000000, 0, 0, 0, 0, 0, 0],
  [10623469999999917668107500000000000000, -31870410000000054179697000000000000000, 31870409999999853396114000000000000000, 0, 0, -34830399502083833671023, 0, -557286392033340134034870, 0],
  [-15452320000000000000000000000000000000, 0, 0, -127481640000000000000000000000000000000, 127481640000000000000000000000000000000, 127481640000000000000000000000000000000, 0, 0, 0],
  [0, 34767720000000000000000000000000000000, -34767720000000000000000000000000000000, 0, 0, 0, 637408200000000000000000000000000000000, -637408200000000000000000000000000000000, 0],
  [5348880000000000000000000000000000000, 0, 0, 115892400000000000000000000000000000000, -115892400000000000000000000000000000000, -115892400000000000000000000000000000000, 0, 0, 4461857400000000000000000000000000000000],
  [0, -13372200000000000000000000000000000000, 13372200000000000000000000000000000000, 0, 0, 0, -405623400000000000000000000000000000000, 405623400000000000000000000000000000000, 0],
  [-1188640000000000000000000000000000000, 0, 0, -31201800000000000000000000000000000000, 31201800000000000000000000000000000000, 31201800000000000000000000000000000000, 0, 0, 0],
  [0, 2080120000000000000000000000000000000, -2080120000000000000000000000000000000, 0, 0, 0, 0, 0, 0],
  [122360000000000000000000000000000000, 0, 0, 0, 0, 0, 0, 0, 0],
  [0, 0, 0, 0, 0, 0, 0, 0, 0],
  [0, 0, 0, 0, 0, 0, 0, 0, 0],
  [0, 0, 0, 0, 0, 0, 0, 0, 0]]

/-- The nine integrals of the pairs `(7, k)` times the common denominator. -/
def nine7 : List (List Int) := [
  [5794619999999887555398900000000000000, 0, 0, 0, 0, 0, 0, 0, 0],
  [2897309999999873503445400000000000000, 139321598008335133900509, -104491198506251300229486, -278643196016671070935350, 1114572784066680268069740, 0, 0, 0, 0],
  [-5794619999999887555398900000000000000, 0, 0, 0, 0, 0, 0, 0, 0],
  [2897309999999873503445400000000000000, 417964794025005602485110, -104491198506251300229486, 0, 0, 0, 0, 0, 0],
  [0, -11589240000000000000000000000000000000, 11589240000000000000000000000000000000, 0, 0, 0, 0, 0, 0],
  [-3565920000000000000000000000000000000, 0, 0, -57946200000000000000000000000000000000, 57946200000000000000000000000000000000, 57946200000000000000000000000000000000, 0, 0, 0],
  [0, 13372200000000000000000000000000000000, -13372200000000000000000000000000000000, 0, 0, 0, 405623400000000000000000000000000000000, -405623400000000000000000000000000000000, 0],
  [1782960000000000000000000000000000000, 0, 0, 62403600000000000000000000000000000000, -62403600000000000000000000000000000000, -62403600000000000000000000000000000000, 0, 0, 3650610600000000000000000000000000000000],
  [0, -6240360000000000000000000000000000000, 6240360000000000000000000000000000000, 0, 0, 0, -280816200000000000000000000000000000000, 280816200000000000000000000000000000000, 0],
  [-489440000000000000000000000000000000, 0, 0, -18721080000000000000000000000000000000, 18721080000000000000000000000000000000, 18721080000000000000000000000000000000, 0, 0, 0],
  [0, 1101240000000000000000000000000000000, -1101240000000000000000000000000000000, 0, 0, 0, 0, 0, 0],
  [57960000000000000000000000000000000, 0, 0, 0, 0, 0, 0, 0, 0],
  [0, 0, 0, 0, 0, 0, 0, 0, 0],
  [0, 0, 0, 0, 0, 0, 0, 0, 0]]

/-- The nine integrals of the pairs `(8, k)` times the common denominator. -/
def nine8 : List (List Int) := [
  [-278643196016671070935350, 0, 0, 0, 8916582272533454191572900, 0, 0, 0, 0],
  [0, 0, 69660799004167466558463, 835929588050011204970220, -3343718352200032772865900, -174151997510418967571532, 0, 0, 0],
  [-696607990041674665584630, 0, 0, 0, 0, 0, 0, 0, 0],
  [0, 0, 139321598008335133900509, 696607990041674665584630, -2229145568133368567482800, -208982397012501797324640, 0, 0, 0],
  [891480000000000000000000000000000000, 0, 0, 0, 0, 0, 0, 0, 0],
  [0, -4457400000000000000000000000000000000, 4457400000000000000000000000000000000, 0, 0, 0, 0, 0, 0],
  [-1188640000000000000000000000000000000, 0, 0, -31201800000000000000000000000000000000, 31201800000000000000000000000000000000, 31201800000000000000000000000000000000, 0, 0, 0],
  [0, 6240360000000000000000000000000000000, -6240360000000000000000000000000000000, 0, 0, 0, 280816200000000000000000000000000000000, -280816200000000000000000000000000000000, 0],
  [734160000000000000000000000000000000, 0, 0, 37442160000000000000000000000000000000, -37442160000000000000000000000000000000, -37442160000000000000000000000000000000, 0, 0, 3088978200000000000000000000000000000000],
  [0, -3303720000000000000000000000000000000, 3303720000000000000000000000000000000, 0, 0, 0, -205931880000000000000000000000000000000, 205931880000000000000000000000000000000, 0],
  [-231840000000000000000000000000000000, 0, 0, -12113640000000000000000000000000000000, 12113640000000000000000000000000000000, 12113640000000000000000000000000000000, 0, 0, 0],
  [0, 637560000000000000000000000000000000, -637560000000000000000000000000000000, 0, 0, 0, 0, 0, 0],
  [30360000000000000000000000000000000, 0, 0, 0, 0, 0, 0, 0, 0],
  [0, 0, 0, 0, 0, 0, 0, 0, 0]]

/-- The nine integrals of the pairs `(9, k)` times the common denominator. -/
def nine9 : List (List Int) := [
  [-835929588050011204970220, 2229145568133368567482800, 0, 0, 0, 0, 0, 0, 0],
  [174151997510418967571532, 835929588050011204970220, -748853589294802122751620, -1114572784066680268069740, 0, 278643196016671070935350, 13374873408800171248180200, 1671859176100020402104610, 0],
  [940420786556262103632540, 1114572784066680268069740, 0, 0, 0, 0, 0, 0, 0],
  [139321598008335133900509, 557286392033340134034870, 278643196016671070935350, -2229145568133368567482800, -2229145568133368567482800, 0, 12260300624733486964438800, 1671859176100020402104610, 0],
  [0, 0, 0, 0, 0, 0, 0, 0, 0],
  [297160000000000000000000000000000000, 0, 0, 0, 0, 0, 0, 0, 0],
  [0, -2080120000000000000000000000000000000, 2080120000000000000000000000000000000, 0, 0, 0, 0, 0, 0],
  [-489440000000000000000000000000000000, 0, 0, -18721080000000000000000000000000000000, 18721080000000000000000000000000000000, 18721080000000000000000000000000000000, 0, 0, 0],
  [0, 3303720000000000000000000000000000000, -3303720000000000000000000000000000000, 0, 0, 0, 205931880000000000000000000000000000000, -205931880000000000000000000000000000000, 0],
  [347760000000000000000000000000000000, 0, 0, 24227280000000000000000000000000000000, -24227280000000000000000000000000000000, -24227280000000000000000000000000000000, 0, 0, 2677114440000000000000000000000000000000],
  [0, -1912680000000000000000000000000000000, 1912680000000000000000000000000000000, 0, 0, 0, -157477320000000000000000000000000000000, 157477320000000000000000000000000000000, 0],
  [-121440000000000000000000000000000000, 0, 0, -8288280000000000000000000000000000000, 8288280000000000000000000000000000000, 8288280000000000000000000000000000000, 0, 0, 0],
  [0, 394680000000000000000000000000000000, -394680000000000000000000000000000000, 0, 0, 0, 0, 0, 0],
  [17160000000000000000000000000000000, 0, 0, 0, 0, 0, 0, 0, 0]]

/-- The nine integrals of the pairs `(10, k)` times the common denominator. -/
def nine10 : List (List Int) := [
  [0, 0, 0, 0, 0, 0, 0, 0, 0],
  [139321598008335133900509, 835929588050011204970220, 383134394522921969597670, -2925753558175041225231600, -17833164545066888304787500, 208982397012501797324640, 0, 0, 0],
  [-557286392033340134034870, 0, 0, 0, 35666329090133776609575000, 0, 0, 0, 0],
  [0, 1114572784066680268069740, -174151997510418967571532, -2229145568133368567482800, 13374873408800171248180200, 278643196016671070935350, 0, 0, 0],
  [0, 0, 0, 0, 0, 0, 0, 0, 0],
  [0, 0, 0, 0, 0, 0, 0, 0, 0],
  [122360000000000000000000000000000000, 0, 0, 0, 0, 0, 0, 0, 0],
  [0, -1101240000000000000000000000000000000, 1101240000000000000000000000000000000, 0, 0, 0, 0, 0, 0],
  [-231840000000000000000000000000000000, 0, 0, -12113640000000000000000000000000000000, 12113640000000000000000000000000000000, 12113640000000000000000000000000000000, 0, 0, 0],
  [0, 1912680000000000000000000000000000000, -1912680000000000000000000000000000000, 0, 0, 0, 157477320000000000000000000000000000000, -157477320000000000000000000000000000000, 0],
  [182160000000000000000000000000000000, 0, 0, 16576560000000000000000000000000000000, -16576560000000000000000000000000000000, -16576560000000000000000000000000000000, 0, 0, 2362159800000000000000000000000000000000],
  [0, -1184040000000000000000000000000000000, 1184040000000000000000000000000000000, 0, 0, 0, -124324200000000000000000000000000000000, 124324200000000000000000000000000000000, 0],
  [-68640000000000000000000000000000000, 0, 0, -5920200000000000000000000000000000000, 5920200000000000000000000000000000000, 5920200000000000000000000000000000000, 0, 0, 0],
  [0, 257400000000000000000000000000000000, -257400000000000000000000000000000000, 0, 0, 0, 0, 0, 0]]

/-- The nine integrals of the pairs `(11, k)` times the common denominator. -/
def nine11 : List (List Int) := [
  [2229145568133368567482800, 0, 0, 0, 0, 0, 0, 0, 0],
  [-557286392033340134034870, 4458291136266717056607300, 0, 0, 0, 0, 0, 0, 0],
  [-1602198377095853136329730, 0, 0, 0, 0, 0, 0, 0, 0],
  [557286392033340134034870, 3065075156183371741109700, 557286392033340134034870, 0, 0, 0, 0, 0, 0],
  [0, 0, 0, 0, 0, 0, 0, 0, 0],
  [0, 0, 0, 0, 0, 0, 0, 0, 0],
  [0, 0, 0, 0, 0, 0, 0, 0, 0],
  [57960000000000000000000000000000000, 0, 0, 0, 0, 0, 0, 0, 0],
  [0, -637560000000000000000000000000000000, 637560000000000000000000000000000000, 0, 0, 0, 0, 0, 0],
  [-121440000000000000000000000000000000, 0, 0, -8288280000000000000000000000000000000, 8288280000000000000000000000000000000, 8288280000000000000000000000000000000, 0, 0, 0],
  [0, 1184040000000000000000000000000000000, -1184040000000000000000000000000000000, 0, 0, 0, 124324200000000000000000000000000000000, -124324200000000000000000000000000000000, 0],
  [102960000000000000000000000000000000, 0, 0, 11840400000000000000000000000000000000, -11840400000000000000000000000000000000, -11840400000000000000000000000000000000, 0, 0, 2113511400000000000000000000000000000000],
  [0, -772200000000000000000000000000000000, 772200000000000000000000000000000000, 0, 0, 0, -100643400000000000000000000000000000000, 100643400000000000000000000000000000000, 0],
  [-41184000000000000000000000000000000, 0, 0, -4375800000000000000000000000000000000, 4375800000000000000000000000000000000, 4375800000000000000000000000000000000, 0, 0, 0]]

/-- The nine integrals of the pairs `(12, k)` times the common denominator. -/
def nine12 : List (List Int) := [
  [0, 13374873408800171248180200, 0, 0, 0, 0, 0, 0, 0],
  [278643196016671070935350, -6130150312366743482219400, 742322889388160437667310, 0, -35666329090133776609575000, 0, 0, 0, 0],
  [-4458291136266717056607300, -15604018976933539815663000, -2786431960166710709353500, 0, 0, 0, 0, 0, 0],
  [417964794025005602485110, -1671859176100020402104610, 557286392033340134034870, 0, -35666329090133776609575000, 0, 0, 0, 0],
  [0, 0, 0, 0, 0, 0, 0, 0, 0],
  [0, 0, 0, 0, 0, 0, 0, 0, 0],
  [0, 0, 0, 0, 0, 0, 0, 0, 0],
  [0, 0, 0, 0, 0, 0, 0, 0, 0],
  [30360000000000000000000000000000000, 0, 0, 0, 0, 0, 0, 0, 0],
  [0, -394680000000000000000000000000000000, 394680000000000000000000000000000000, 0, 0, 0, 0, 0, 0],
  [-68640000000000000000000000000000000, 0, 0, -5920200000000000000000000000000000000, 5920200000000000000000000000000000000, 5920200000000000000000000000000000000, 0, 0, 0],
  [0, 772200000000000000000000000000000000, -772200000000000000000000000000000000, 0, 0, 0, 100643400000000000000000000000000000000, -100643400000000000000000000000000000000, 0],
  [61776000000000000000000000000000000, 0, 0, 8751600000000000000000000000000000000, -8751600000000000000000000000000000000, -8751600000000000000000000000000000000, 0, 0, 1912224600000000000000000000000000000000],
  [0, -525096000000000000000000000000000000, 525096000000000000000000000000000000, 0, 0, 0, -83140200000000000000000000000000000000, 83140200000000000000000000000000000000, 0]]

/-- The nine integrals of the pairs `(13, k)` times the common denominator. -/
def nine13 : List (List Int) := [
  [-5572863920333401340348700, 0, 0, 53499493635200765306154000, 213997974540802659657450000, -3343718352200032772865900, 0, 0, 0],
  [1671859176100020402104610, -8916582272533454191572900, -2229145568133368567482800, -6687436704400085624090100, -26749746817600382653077000, -3901004744233374914736600, 0, 0, 0],
  [4458291136266717056607300, -35666329090133776609575000, 0, 53499493635200765306154000, 213997974540802659657450000, -3343718352200032772865900, 0, 0, 0],
  [557286392033340134034870, 0, -2786431960166710709353500, 8916582272533454191572900, 71332658180267553219150000, -2229145568133368567482800, 0, 0, 0],
  [0, 0, 0, 0, 0, 0, 0, 0, 0],
  [0, 0, 0, 0, 0, 0, 0, 0, 0],
  [0, 0, 0, 0, 0, 0, 0, 0, 0],
  [0, 0, 0, 0, 0, 0, 0, 0, 0],
  [0, 0, 0, 0, 0, 0, 0, 0, 0],
  [17160000000000000000000000000000000, 0, 0, 0, 0, 0, 0, 0, 0],
  [0, -257400000000000000000000000000000000, 257400000000000000000000000000000000, 0, 0, 0, 0, 0, 0],
  [-41184000000000000000000000000000000, 0, 0, -4375800000000000000000000000000000000, 4375800000000000000000000000000000000, 4375800000000000000000000000000000000, 0, 0, 0],
  [0, 525096000000000000000000000000000000, -525096000000000000000000000000000000, 0, 0, 0, 83140200000000000000000000000000000000, -83140200000000000000000000000000000000, 0],
  [38896000000000000000000000000000000, 0, 0, 6651216000000000000000000000000000000, -6651216000000000000000000000000000000, -6651216000000000000000000000000000000, 0, 0, 1745944200000000000000000000000000000000]]

/-- The nine integrals of all pairs: `ff`, `fxi_f`, `f_fxi`, `fxi_fxi`, `fxixi_f`, `f_fxixi`, `fxixi_fxi`, `fxi_fxixi`, `fxixi_fxixi`. -/
def nineTab : List (List (List Int)) := [nine0, nine1, nine2, nine3, nine4, nine5, nine6, nine7, nine8, nine9, nine10, nine11, nine12, nine13]

end Composipy
