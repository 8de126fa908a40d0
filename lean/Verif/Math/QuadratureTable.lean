import Mathlib.Data.Nat.Notation
import Mathlib.Data.Int.Notation

/-!
# Nodes and weights of the tanh-sinh rule

Generated by `tools/gen_quadrature.py` from `crates/RustQuant_math/src/integration.rs`. A pair `(m, e)` is the decimal
literal `m / 10^e`, taken exactly (the rounding of the literal to `f64` is not modelled).
-/

namespace Verif.Math.Quadrature

/-- integration.rs 86-187: `ABSCISSAE`. -/
def abscissae : List (ℤ × ℕ) := [
  (-10, 1),
  (-10, 1),
  (-10, 1),
  (-10, 1),
  (-10, 1),
  (-10, 1),
  (-10, 1),
  (-10, 1),
  (-10, 1),
  (-10, 1),
  (-10, 1),
  (-10, 1),
  (-10, 1),
  (-10, 1),
  (-10, 1),
  (-10, 1),
  (-99999999999999999999999992, 26),
  (-99999999999999999999999995, 26),
  (-99999999999999999999999998, 26),
  (-99999999999999999999999991, 26),
  (-99999999999999999999999995, 26),
  (-99999999999999999999999877, 26),
  (-99999999999999999999910326, 26),
  (-9999999999999999997039324, 25),
  (-9999999999999999505317162, 25),
  (-9999999999999954, 16),
  (-9999999999997554, 16),
  (-9999999999917284, 16),
  (-9999999998146703, 16),
  (-9999999971113436, 16),
  (-9999999672978459, 16),
  (-9999997206545436, 16),
  (-999998137805321, 15),
  (-9999900191438567, 16),
  (-9999558409786934, 16),
  (-999834913162265, 15),
  (-999467635803999, 15),
  (-9984919387316029, 16),
  (-9961867715852437, 16),
  (-9912725602365509, 16),
  (-9817015659738769, 16),
  (-9644953799311114, 16),
  (-9357086887401398, 16),
  (-8906131539706369, 16),
  (-8241909724684122, 16),
  (-7319829549775685, 16),
  (-6112289330475506, 16),
  (-4620723424456371, 16),
  (-2884351638903986, 16),
  (-9812069704907877, 17),
  (9812069704907875, 17),
  (28843516389039864, 17),
  (46207234244563719, 17),
  (6112289330475507, 16),
  (7319829549775685, 16),
  (8241909724684122, 16),
  (8906131539706369, 16),
  (9357086887401399, 16),
  (9644953799311115, 16),
  (9817015659738769, 16),
  (991272560236551, 15),
  (9961867715852437, 16),
  (998491938731603, 15),
  (999467635803999, 15),
  (999834913162265, 15),
  (9999558409786935, 16),
  (9999900191438568, 16),
  (9999981378053211, 16),
  (9999997206545437, 16),
  (999999967297846, 15),
  (9999999971113437, 16),
  (9999999998146702, 16),
  (9999999999917284, 16),
  (9999999999997554, 16),
  (9999999999999954, 16),
  (99999999999999995053174, 23),
  (99999999999999999970394, 23),
  (999999999999999999999156, 24),
  (999999999999999999999987, 24),
  (999999999999999999999985, 24),
  (999999999999999999999951, 24),
  (999999999999999999999958, 24),
  (999999999999999999999955, 24),
  (999999999999999999999912, 24),
  (10, 1),
  (10, 1),
  (10, 1),
  (10, 1),
  (10, 1),
  (10, 1),
  (10, 1),
  (10, 1),
  (10, 1),
  (10, 1),
  (10, 1),
  (10, 1),
  (10, 1),
  (10, 1),
  (10, 1),
  (10, 1)]

/-- integration.rs 190-291: `WEIGHTS`. -/
def weights : List (ℤ × ℕ) := [
  (0, 1),
  (4575617930178338, 310),
  (3316994462570346, 275),
  (18652126224951735, 245),
  (2479121672052092, 217),
  (2081537448295626, 193),
  (26282020113568824, 173),
  (10726298856549833, 154),
  (2779482305261637, 137),
  (8296418844663515, 123),
  (4824667051120648, 110),
  (8690880649537159, 99),
  (7300384623604137, 89),
  (4102662749806205, 80),
  (2120927715027845, 72),
  (13358249934060332, 66),
  (13134068783205991, 60),
  (25088078163950786, 55),
  (11291938670594328, 50),
  (14198949758810438, 46),
  (57967544218961544, 43),
  (8772732913927396, 39),
  (5532447125135289, 36),
  (16120262304040781, 34),
  (23772412457440436, 32),
  (1922871877455573, 29),
  (9158786378811089, 28),
  (27350196856077823, 27),
  (5412036348700474, 25),
  (7452095495199113, 24),
  (7455643353281056, 23),
  (5630935258210419, 22),
  (3320892221887424, 21),
  (15758692556974202, 21),
  (617894087919728, 19),
  (20496122229359242, 20),
  (5873088850232362, 19),
  (14808565224807768, 19),
  (333910890615536, 17),
  (6827704416155456, 18),
  (12809851589261179, 18),
  (2226290836707166, 17),
  (3610662328000348, 17),
  (5493500171981043, 17),
  (7867210439287516, 17),
  (10622501864477554, 17),
  (13527485447886908, 17),
  (16238710772598652, 17),
  (183570841955285, 15),
  (19523423322883865, 17),
  (19523423322883865, 17),
  (183570841955285, 15),
  (16238710772598652, 17),
  (13527485447886908, 17),
  (10622501864477554, 17),
  (7867210439287516, 17),
  (5493500171981043, 17),
  (3610662328000348, 17),
  (2226290836707166, 17),
  (12809851589261179, 18),
  (6827704416155456, 18),
  (333910890615536, 17),
  (14808565224807768, 19),
  (5873088850232362, 19),
  (20496122229359242, 20),
  (617894087919728, 19),
  (15758692556974202, 21),
  (3320892221887424, 21),
  (5630935258210419, 22),
  (7455643353281056, 23),
  (7452095495199113, 24),
  (5412036348700474, 25),
  (27350196856077823, 27),
  (9158786378811089, 28),
  (1922871877455573, 29),
  (23772412457440436, 32),
  (16120262304040781, 34),
  (5532447125135289, 36),
  (8772732913927396, 39),
  (57967544218961544, 43),
  (14198949758810438, 46),
  (11291938670594328, 50),
  (25088078163950786, 55),
  (13134068783205991, 60),
  (13358249934060332, 66),
  (2120927715027845, 72),
  (4102662749806205, 80),
  (7300384623604137, 89),
  (8690880649537159, 99),
  (4824667051120648, 110),
  (8296418844663515, 123),
  (2779482305261637, 137),
  (10726298856549833, 154),
  (26282020113568824, 173),
  (2081537448295626, 193),
  (2479121672052092, 217),
  (18652126224951735, 245),
  (3316994462570346, 275),
  (4575617930178338, 310),
  (0, 1)]

end Verif.Math.Quadrature
