import Verif.Model.Gauss

/-!
# Tables of `src/recovery/get_extrap_matrix.rs`: transposed pseudo-inverses of the coordinates of the integration points

GENERATED by `tools/gen_recovery.py`. Every entry is the rational number denoted by the source literal, digit by digit.
(Simplification: in Rust the literals are rounded to the nearest `f64`.)
-/

namespace Gemlab
namespace RecoveryTab

/-- `TR_PINV_HXI_LIN_LEGENDRE_1` — get_extrap_matrix.rs:280-282. -/
def trLinLegendre1 : List GaussRow := [
  (0.000000000000000, 1.000000000000000, 0.000000000000000, 0.000000000000000)]

/-- `TR_PINV_HXI_LIN_LEGENDRE_2` — get_extrap_matrix.rs:286-289. -/
def trLinLegendre2 : List GaussRow := [
  (-8.660254037844387e-1, 5.000000000000000e-1, 0.000000000000000, 0.000000000000000),
  (8.660254037844387e-1, 5.000000000000000e-1, 0.000000000000000, 0.000000000000000)]

/-- `TR_PINV_HXI_LIN_LEGENDRE_3` — get_extrap_matrix.rs:293-297. -/
def trLinLegendre3 : List GaussRow := [
  (-6.454972243679027e-1, 3.333333333333334e-1, 0.000000000000000, 0.000000000000000),
  (0.000000000000000, 3.333333333333334e-1, 0.000000000000000, 0.000000000000000),
  (6.454972243679027e-1, 3.333333333333334e-1, 0.000000000000000, 0.000000000000000)]

/-- `TR_PINV_HXI_LIN_LEGENDRE_4` — get_extrap_matrix.rs:301-306. -/
def trLinLegendre4 : List GaussRow := [
  (-5.023295150965307e-1, 2.500000000000000e-1, 0.000000000000000, 0.000000000000000),
  (-1.983222754244993e-1, 2.499999999999999e-1, 0.000000000000000, 0.000000000000000),
  (1.983222754244995e-1, 2.500000000000000e-1, 0.000000000000000, 0.000000000000000),
  (5.023295150965307e-1, 2.500000000000000e-1, 0.000000000000000, 0.000000000000000)]

/-- `TR_PINV_HXI_LIN_LEGENDRE_5` — get_extrap_matrix.rs:310-316. -/
def trLinLegendre5 : List GaussRow := [
  (-4.077809306723987e-1, 1.999999999999999e-1, 0.000000000000000, 0.000000000000000),
  (-2.423111895475574e-1, 2.000000000000000e-1, 0.000000000000000, 0.000000000000000),
  (0.000000000000000, 2.000000000000000e-1, 0.000000000000000, 0.000000000000000),
  (2.423111895475574e-1, 2.000000000000000e-1, 0.000000000000000, 0.000000000000000),
  (4.077809306723987e-1, 2.000000000000000e-1, 0.000000000000000, 0.000000000000000)]

/-- `TR_PINV_HXI_TRI_INTERNAL_1` — get_extrap_matrix.rs:324-326. -/
def trTriInternal1 : List GaussRow := [
  (2.727272727272727e-1, 2.727272727272728e-1, 8.181818181818182e-1, 0.000000000000000)]

/-- `TR_PINV_HXI_TRI_INTERNAL_3` — get_extrap_matrix.rs:330-334. -/
def trTriInternal3 : List GaussRow := [
  (-2.000000000000000, -1.999999999999999, 1.666666666666666, 0.000000000000000),
  (2.000000000000000, -9.992007221626409e-16, -3.333333333333329e-1, 0.000000000000000),
  (-5.551115123125783e-16, 2.000000000000000, -3.333333333333331e-1, 0.000000000000000)]

/-- `TR_PINV_HXI_TRI_INTERNAL_4` — get_extrap_matrix.rs:338-343. -/
def trTriInternal4 : List GaussRow := [
  (3.053113317719180e-16, -4.440892098500626e-16, 2.500000000000000e-1, 0.000000000000000),
  (-2.500000000000000, -2.499999999999999, 1.916666666666667, 0.000000000000000),
  (2.500000000000000, 0.000000000000000, -5.833333333333335e-1, 0.000000000000000),
  (-2.220446049250313e-16, 2.500000000000000, -5.833333333333333e-1, 0.000000000000000)]

/-- `TR_PINV_HXI_TRI_FELIPPA_6` — get_extrap_matrix.rs:347-354. -/
def trTriFelippa6 : List GaussRow := [
  (5.277531727779488e-1, 5.277531727779489e-1, -1.851687818519657e-1, 0.000000000000000),
  (-5.277531727779498e-1, -5.551115123125783e-16, 3.425843909259835e-1, 0.000000000000000),
  (1.110223024625157e-16, -5.277531727779492e-1, 3.425843909259830e-1, 0.000000000000000),
  (-1.132956608748925, -1.132956608748925, 9.219710724992830e-1, 0.000000000000000),
  (1.132956608748925, 1.110223024625157e-16, -2.109855362496415e-1, 0.000000000000000),
  (3.330669073875470e-16, 1.132956608748925, -2.109855362496416e-1, 0.000000000000000)]

/-- `TR_PINV_HXI_TRI_FELIPPA_7` — get_extrap_matrix.rs:358-366. -/
def trTriFelippa7 : List GaussRow := [
  (-1.065965106982872, -1.065965106982872, 8.535005475123904e-1, 0.000000000000000),
  (1.065965106982872, 1.665334536937735e-16, -2.124645594704811e-1, 0.000000000000000),
  (-1.054711873393899e-15, 1.065965106982872, -2.124645594704807e-1, 0.000000000000000),
  (6.284651069828712e-1, 6.284651069828718e-1, -2.761195951314379e-1, 0.000000000000000),
  (-6.284651069828718e-1, 4.996003610813204e-16, 3.523455118514330e-1, 0.000000000000000),
  (8.881784197001252e-16, -6.284651069828719e-1, 3.523455118514331e-1, 0.000000000000000),
  (-6.938893903907228e-18, -6.938893903907228e-18, 1.428571428571429e-1, 0.000000000000000)]

/-- `TR_PINV_HXI_TRI_INTERNAL_12` — get_extrap_matrix.rs:370-383. -/
def trTriInternal12 : List GaussRow := [
  (6.571568458494592e-1, 5.551115123125783e-16, -1.357189486164864e-1, 0.000000000000000),
  (5.551115123125783e-17, 6.571568458494583e-1, -1.357189486164860e-1, 0.000000000000000),
  (-6.571568458494572e-1, -6.571568458494574e-1, 5.214378972329713e-1, 0.000000000000000),
  (2.043772502523998e-1, -2.359223927328458e-16, 1.520758324920021e-2, 0.000000000000000),
  (-2.081668171172169e-16, 2.043772502523998e-1, 1.520758324920021e-2, 0.000000000000000),
  (-2.043772502524000e-1, -2.043772502524001e-1, 2.195848335016000e-1, 0.000000000000000),
  (-4.728527911487811e-1, -2.643678601563865e-1, 3.290735504350557e-1, 0.000000000000000),
  (-2.643678601563865e-1, -4.728527911487813e-1, 3.290735504350558e-1, 0.000000000000000),
  (-2.084849309923949e-1, 2.643678601563862e-1, 6.470569027866957e-2, 0.000000000000000),
  (2.084849309923942e-1, 4.728527911487809e-1, -1.437792407137249e-1, 0.000000000000000),
  (2.643678601563864e-1, -2.084849309923949e-1, 6.470569027866956e-2, 0.000000000000000),
  (4.728527911487808e-1, 2.084849309923944e-1, -1.437792407137249e-1, 0.000000000000000)]

/-- `TR_PINV_HXI_TRI_INTERNAL_16` — get_extrap_matrix.rs:387-404. -/
def trTriInternal16 : List GaussRow := [
  (-7.702172233337023e-16, -7.632783294297951e-16, 6.250000000000060e-2, 0.000000000000000),
  (-1.987854631147938e-1, 8.326672684688674e-16, 1.287618210382643e-1, 0.000000000000000),
  (8.326672684688674e-17, -1.987854631147941e-1, 1.287618210382647e-1, 0.000000000000000),
  (1.987854631147946e-1, 1.987854631147943e-1, -7.002364207652959e-2, 0.000000000000000),
  (2.568697489842479e-1, -9.714451465470120e-17, -2.312324966141592e-2, 0.000000000000000),
  (1.249000902703301e-16, 2.568697489842479e-1, -2.312324966141593e-2, 0.000000000000000),
  (-2.568697489842480e-1, -2.568697489842476e-1, 2.337464993228319e-1, 0.000000000000000),
  (4.462853235057508e-1, -8.326672684688674e-17, -8.626177450191685e-2, 0.000000000000000),
  (1.110223024625157e-16, 4.462853235057505e-1, -8.626177450191681e-2, 0.000000000000000),
  (-4.462853235057508e-1, -4.462853235057501e-1, 3.600235490038337e-1, 0.000000000000000),
  (-3.788128101165515e-1, -2.448164475851215e-1, 2.703764192338910e-1, 0.000000000000000),
  (2.448164475851219e-1, -1.339963625314294e-1, 2.555997164876920e-2, 0.000000000000000),
  (1.339963625314296e-1, 3.788128101165512e-1, -1.084363908826602e-1, 0.000000000000000),
  (-1.339963625314294e-1, 2.448164475851219e-1, 2.555997164876921e-2, 0.000000000000000),
  (3.788128101165515e-1, 1.339963625314294e-1, -1.084363908826603e-1, 0.000000000000000),
  (-2.448164475851220e-1, -3.788128101165510e-1, 2.703764192338910e-1, 0.000000000000000)]

/-- `TR_PINV_HXI_QUA_LEGENDRE_1` — get_extrap_matrix.rs:412-414. -/
def trQuaLegendre1 : List GaussRow := [
  (0.000000000000000, 0.000000000000000, 1.000000000000000, 0.000000000000000)]

/-- `TR_PINV_HXI_QUA_LEGENDRE_4` — get_extrap_matrix.rs:418-423. -/
def trQuaLegendre4 : List GaussRow := [
  (-4.330127018922194e-1, -4.330127018922194e-1, 2.500000000000001e-1, 0.000000000000000),
  (4.330127018922194e-1, -4.330127018922194e-1, 2.500000000000001e-1, 0.000000000000000),
  (-4.330127018922194e-1, 4.330127018922192e-1, 2.500000000000001e-1, 0.000000000000000),
  (4.330127018922194e-1, 4.330127018922192e-1, 2.500000000000001e-1, 0.000000000000000)]

/-- `TR_PINV_HXI_QUA_LEGENDRE_9` — get_extrap_matrix.rs:427-437. -/
def trQuaLegendre9 : List GaussRow := [
  (-2.151657414559677e-1, -2.151657414559677e-1, 1.111111111111112e-1, 0.000000000000000),
  (0.000000000000000, -2.151657414559677e-1, 1.111111111111111e-1, 0.000000000000000),
  (2.151657414559676e-1, -2.151657414559676e-1, 1.111111111111112e-1, 0.000000000000000),
  (-2.151657414559676e-1, -2.159566345137073e-17, 1.111111111111111e-1, 0.000000000000000),
  (0.000000000000000, 0.000000000000000, 1.111111111111111e-1, 0.000000000000000),
  (2.151657414559676e-1, 2.159566345137073e-17, 1.111111111111111e-1, 0.000000000000000),
  (-2.151657414559676e-1, 2.151657414559676e-1, 1.111111111111111e-1, 0.000000000000000),
  (0.000000000000000, 2.151657414559676e-1, 1.111111111111111e-1, 0.000000000000000),
  (2.151657414559676e-1, 2.151657414559677e-1, 1.111111111111111e-1, 0.000000000000000)]

/-- `TR_PINV_HXI_QUA_LEGENDRE_16` — get_extrap_matrix.rs:441-458. -/
def trQuaLegendre16 : List GaussRow := [
  (-1.255823787741326e-1, -1.255823787741326e-1, 6.249999999999997e-2, 0.000000000000000),
  (-4.958056885612486e-2, -1.255823787741327e-1, 6.249999999999997e-2, 0.000000000000000),
  (4.958056885612486e-2, -1.255823787741326e-1, 6.249999999999996e-2, 0.000000000000000),
  (1.255823787741326e-1, -1.255823787741327e-1, 6.249999999999998e-2, 0.000000000000000),
  (-1.255823787741326e-1, -4.958056885612488e-2, 6.249999999999999e-2, 0.000000000000000),
  (-4.958056885612486e-2, -4.958056885612488e-2, 6.249999999999998e-2, 0.000000000000000),
  (4.958056885612486e-2, -4.958056885612488e-2, 6.249999999999998e-2, 0.000000000000000),
  (1.255823787741326e-1, -4.958056885612488e-2, 6.249999999999999e-2, 0.000000000000000),
  (-1.255823787741326e-1, 4.958056885612484e-2, 6.249999999999997e-2, 0.000000000000000),
  (-4.958056885612486e-2, 4.958056885612485e-2, 6.249999999999997e-2, 0.000000000000000),
  (4.958056885612486e-2, 4.958056885612485e-2, 6.249999999999995e-2, 0.000000000000000),
  (1.255823787741326e-1, 4.958056885612484e-2, 6.249999999999997e-2, 0.000000000000000),
  (-1.255823787741326e-1, 1.255823787741326e-1, 6.249999999999997e-2, 0.000000000000000),
  (-4.958056885612486e-2, 1.255823787741326e-1, 6.249999999999998e-2, 0.000000000000000),
  (4.958056885612486e-2, 1.255823787741326e-1, 6.249999999999996e-2, 0.000000000000000),
  (1.255823787741326e-1, 1.255823787741326e-1, 6.249999999999997e-2, 0.000000000000000)]

/-- `TR_PINV_HXI_TET_INTERNAL_1` — get_extrap_matrix.rs:466-468. -/
def trTetInternal1 : List GaussRow := [
  (2.105263157894737e-1, 2.105263157894737e-1, 2.105263157894737e-1, 8.421052631578949e-1)]

/-- `TR_PINV_HXI_TET_INTERNAL_4` — get_extrap_matrix.rs:472-477. -/
def trTetInternal4 : List GaussRow := [
  (-2.236067977499792, -2.236067977499792, -2.236067977499791, 1.927050983124843),
  (2.236067977499790, -1.110223024625157e-16, 4.440892098500626e-16, -3.090169943749476e-1),
  (1.332267629550188e-15, 2.236067977499791, 9.992007221626409e-16, -3.090169943749480e-1),
  (6.661338147750939e-16, 6.661338147750939e-16, 2.236067977499790, -3.090169943749475e-1)]

/-- `TR_PINV_HXI_TET_INTERNAL_5` — get_extrap_matrix.rs:481-487. -/
def trTetInternal5 : List GaussRow := [
  (5.134781488891349e-16, 4.996003610813204e-16, 5.412337245047638e-16, 1.999999999999996e-1),
  (-3.000000000000000, -3.000000000000000, -3.000000000000000, 2.450000000000000),
  (1.110223024625157e-16, -2.220446049250313e-16, 3.000000000000000, -5.499999999999998e-1),
  (-2.220446049250313e-16, 3.000000000000000, -6.661338147750939e-16, -5.499999999999996e-1),
  (3.000000000000000, -3.330669073875470e-16, -4.440892098500626e-16, -5.499999999999997e-1)]

/-- `TR_PINV_HXI_TET_FELIPPA_8` — get_extrap_matrix.rs:491-500. -/
def trTetFelippa8 : List GaussRow := [
  (7.348347322268437e-1, 7.348347322268440e-1, 7.348347322268439e-1, -4.261260491701330e-1),
  (-7.348347322268431e-1, 2.775557561562891e-16, 3.885780586188048e-16, 3.087086830567106e-1),
  (-2.775557561562891e-16, -7.348347322268443e-1, -3.330669073875470e-16, 3.087086830567113e-1),
  (0.000000000000000, -1.665334536937735e-16, -7.348347322268436e-1, 3.087086830567109e-1),
  (-1.346702273007044, -1.346702273007045, -1.346702273007044, 1.135026704755283),
  (1.346702273007045, 3.330669073875470e-16, -1.110223024625157e-16, -2.116755682517612e-1),
  (-4.996003610813204e-16, 1.346702273007044, -3.330669073875470e-16, -2.116755682517609e-1),
  (-3.885780586188048e-16, -8.881784197001252e-16, 1.346702273007044, -2.116755682517606e-1)]

/-- `TR_PINV_HXI_TET_FELIPPA_14` — get_extrap_matrix.rs:504-519. -/
def trTetFelippa14 : List GaussRow := [
  (-7.967021616808494e-1, -7.967021616808487e-1, -7.967021616808488e-1, 6.689551926892084e-1),
  (7.967021616808486e-1, -4.718447854656915e-16, -5.273559366969494e-16, -1.277469689916405e-1),
  (7.771561172376096e-16, 7.967021616808496e-1, 5.828670879282072e-16, -1.277469689916413e-1),
  (-2.775557561562891e-16, -7.771561172376096e-16, 7.967021616808483e-1, -1.277469689916405e-1),
  (3.084476565084738e-1, 3.084476565084736e-1, 3.084476565084736e-1, -1.599071709527839e-1),
  (-3.084476565084734e-1, -2.220446049250313e-16, -1.526556658859590e-16, 1.485404855556900e-1),
  (-5.689893001203927e-16, -3.084476565084737e-1, -4.440892098500626e-16, 1.485404855556902e-1),
  (1.526556658859590e-16, 3.191891195797325e-16, -3.084476565084729e-1, 1.485404855556896e-1),
  (7.771561172376096e-16, 5.179884281153202e-1, 5.179884281153203e-1, -1.875656426290890e-1),
  (5.179884281153202e-1, -5.551115123125783e-17, 5.179884281153199e-1, -1.875656426290887e-1),
  (5.179884281153215e-1, 5.179884281153214e-1, 1.443289932012704e-15, -1.875656426290898e-1),
  (-5.179884281153214e-1, -5.179884281153213e-1, -1.332267629550188e-15, 3.304227854862326e-1),
  (-5.179884281153200e-1, 2.775557561562891e-16, -5.179884281153196e-1, 3.304227854862315e-1),
  (-5.551115123125783e-16, -5.179884281153200e-1, -5.179884281153200e-1, 3.304227854862317e-1)]

/-- `TR_PINV_HXI_TET_FELIPPA_15` — get_extrap_matrix.rs:523-539. -/
def trTetFelippa15 : List GaussRow := [
  (-8.130014854074423e-1, -8.130014854074422e-1, -8.130014854074420e-1, 6.764177807222482e-1),
  (8.130014854074428e-1, 4.996003610813204e-16, 2.775557561562891e-16, -1.365837046851943e-1),
  (-6.661338147750939e-16, 8.130014854074419e-1, -3.885780586188048e-16, -1.365837046851935e-1),
  (-3.330669073875470e-16, -2.775557561562891e-16, 8.130014854074420e-1, -1.365837046851937e-1),
  (3.590629006277350e-1, 3.590629006277352e-1, 3.590629006277353e-1, -2.026305088041347e-1),
  (-3.590629006277354e-1, 4.163336342344337e-16, 3.608224830031759e-16, 1.564323918236003e-1),
  (1.942890293094024e-16, -3.590629006277357e-1, 1.942890293094024e-16, 1.564323918236004e-1),
  (2.775557561562891e-17, 1.110223024625157e-16, -3.590629006277356e-1, 1.564323918236005e-1),
  (2.220446049250313e-16, -4.981273640649506e-1, -4.981273640649505e-1, 3.157303486991418e-1),
  (-4.981273640649502e-1, 6.106226635438361e-16, -4.981273640649501e-1, 3.157303486991416e-1),
  (-4.981273640649498e-1, -4.981273640649499e-1, 7.216449660063518e-16, 3.157303486991413e-1),
  (4.981273640649497e-1, 4.981273640649500e-1, -7.216449660063518e-16, -1.823970153658079e-1),
  (4.981273640649501e-1, -7.216449660063518e-16, 4.981273640649502e-1, -1.823970153658082e-1),
  (-4.440892098500626e-16, 4.981273640649506e-1, 4.981273640649506e-1, -1.823970153658085e-1),
  (3.122502256758253e-17, 1.092875789865388e-16, 1.387778780781446e-16, 6.666666666666658e-2)]

/-- `TR_PINV_HXI_TET_FELIPPA_24` — get_extrap_matrix.rs:543-568. -/
def trTetFelippa24 : List GaussRow := [
  (-8.946419742957495e-2, -8.946419742957513e-2, -8.946419742957508e-2, 1.087648147388479e-1),
  (8.946419742957515e-2, 9.020562075079397e-17, 6.591949208711867e-17, 1.930061730927279e-2),
  (-6.938893903907228e-17, 8.946419742957507e-2, -1.457167719820518e-16, 1.930061730927288e-2),
  (5.204170427930421e-17, 1.110223024625157e-16, 8.946419742957519e-2, 1.930061730927277e-2),
  (-5.290594736629001e-1, -5.290594736629005e-1, -5.290594736629003e-1, 4.384612719138419e-1),
  (5.290594736629005e-1, 2.775557561562891e-17, 2.775557561562891e-17, -9.059820174905855e-2),
  (-9.159339953157541e-16, 5.290594736628997e-1, -1.026956297778270e-15, -9.059820174905792e-2),
  (6.383782391594650e-16, 8.049116928532385e-16, 5.290594736629013e-1, -9.059820174905911e-2),
  (1.828298372082145e-1, 1.828298372082146e-1, 1.828298372082145e-1, -9.545571123949428e-2),
  (-1.828298372082147e-1, -6.938893903907228e-17, -2.775557561562891e-17, 8.737412596872032e-2),
  (2.220446049250313e-16, -1.828298372082145e-1, 2.081668171172169e-16, 8.737412596872016e-2),
  (-3.469446951953614e-16, -3.885780586188048e-16, -1.828298372082151e-1, 8.737412596872057e-2),
  (-2.106201844895547e-1, -3.407906172208732e-1, -3.407906172208731e-1, 2.647170213994920e-1),
  (-3.407906172208732e-1, -2.106201844895551e-1, -3.407906172208733e-1, 2.647170213994921e-1),
  (-3.407906172208729e-1, -3.407906172208731e-1, -2.106201844895546e-1, 2.647170213994919e-1),
  (3.407906172208731e-1, 1.301704327313181e-1, -2.220446049250313e-16, -7.607359582138114e-2),
  (3.407906172208734e-1, 1.387778780781446e-16, 1.301704327313185e-1, -7.607359582138142e-2),
  (-4.163336342344337e-16, 3.407906172208730e-1, 1.301704327313179e-1, -7.607359582138104e-2),
  (2.106201844895549e-1, -1.301704327313183e-1, -1.301704327313183e-1, 5.409683690993707e-2),
  (-1.301704327313188e-1, 2.106201844895546e-1, -1.301704327313189e-1, 5.409683690993741e-2),
  (-1.301704327313179e-1, -1.301704327313179e-1, 2.106201844895555e-1, 5.409683690993669e-2),
  (1.301704327313178e-1, 3.407906172208728e-1, -6.106226635438361e-16, -7.607359582138090e-2),
  (1.301704327313188e-1, 4.996003610813204e-16, 3.407906172208738e-1, -7.607359582138166e-2),
  (1.942890293094024e-16, 1.301704327313186e-1, 3.407906172208736e-1, -7.607359582138153e-2)]

/-- `TR_PINV_HXI_HEX_IRONS_6` — get_extrap_matrix.rs:576-583. -/
def trHexIrons6 : List GaussRow := [
  (-4.999999999999998e-1, 0.000000000000000, 0.000000000000000, 1.666666666666666e-1),
  (4.999999999999999e-1, 0.000000000000000, 0.000000000000000, 1.666666666666666e-1),
  (0.000000000000000, -4.999999999999999e-1, 0.000000000000000, 1.666666666666667e-1),
  (0.000000000000000, 4.999999999999999e-1, 0.000000000000000, 1.666666666666666e-1),
  (0.000000000000000, 0.000000000000000, -4.999999999999999e-1, 1.666666666666668e-1),
  (0.000000000000000, 0.000000000000000, 4.999999999999999e-1, 1.666666666666667e-1)]

/-- `TR_PINV_HXI_HEX_LEGENDRE_8` — get_extrap_matrix.rs:587-596. -/
def trHexLegendre8 : List GaussRow := [
  (-2.165063509461095e-1, -2.165063509461095e-1, -2.165063509461096e-1, 1.250000000000000e-1),
  (2.165063509461096e-1, -2.165063509461097e-1, -2.165063509461097e-1, 1.250000000000000e-1),
  (-2.165063509461096e-1, 2.165063509461095e-1, -2.165063509461096e-1, 1.250000000000000e-1),
  (2.165063509461096e-1, 2.165063509461096e-1, -2.165063509461096e-1, 1.250000000000001e-1),
  (-2.165063509461096e-1, -2.165063509461095e-1, 2.165063509461096e-1, 1.250000000000000e-1),
  (2.165063509461096e-1, -2.165063509461094e-1, 2.165063509461095e-1, 1.250000000000000e-1),
  (-2.165063509461096e-1, 2.165063509461097e-1, 2.165063509461097e-1, 1.250000000000000e-1),
  (2.165063509461096e-1, 2.165063509461097e-1, 2.165063509461096e-1, 1.250000000000000e-1)]

/-- `TR_PINV_HXI_HEX_IRONS_14` — get_extrap_matrix.rs:600-615. -/
def trHexIrons14 : List GaussRow := [
  (1.355115585649603e-1, 2.290658341603791e-17, 0.000000000000000, 7.142857142857142e-2),
  (-1.355115585649603e-1, 2.290658341603791e-17, 0.000000000000000, 7.142857142857142e-2),
  (0.000000000000000, 1.355115585649603e-1, 0.000000000000000, 7.142857142857142e-2),
  (0.000000000000000, -1.355115585649603e-1, 0.000000000000000, 7.142857142857144e-2),
  (0.000000000000000, 2.290658341603791e-17, 1.355115585649603e-1, 7.142857142857142e-2),
  (0.000000000000000, 2.290658341603791e-17, -1.355115585649603e-1, 7.142857142857142e-2),
  (1.292052015020528e-1, 1.292052015020528e-1, 1.292052015020528e-1, 7.142857142857142e-2),
  (-1.292052015020528e-1, 1.292052015020528e-1, 1.292052015020528e-1, 7.142857142857142e-2),
  (1.292052015020528e-1, -1.292052015020528e-1, 1.292052015020528e-1, 7.142857142857145e-2),
  (-1.292052015020528e-1, -1.292052015020527e-1, 1.292052015020528e-1, 7.142857142857142e-2),
  (1.292052015020528e-1, 1.292052015020528e-1, -1.292052015020528e-1, 7.142857142857142e-2),
  (-1.292052015020528e-1, 1.292052015020528e-1, -1.292052015020528e-1, 7.142857142857142e-2),
  (1.292052015020528e-1, -1.292052015020527e-1, -1.292052015020528e-1, 7.142857142857142e-2),
  (-1.292052015020528e-1, -1.292052015020527e-1, -1.292052015020528e-1, 7.142857142857142e-2)]

/-- `TR_PINV_HXI_HEX_LEGENDRE_27` — get_extrap_matrix.rs:619-647. -/
def trHexLegendre27 : List GaussRow := [
  (-7.172191381865585e-2, -7.172191381865588e-2, -7.172191381865589e-2, 3.703703703703706e-2),
  (0.000000000000000, -7.172191381865585e-2, -7.172191381865592e-2, 3.703703703703706e-2),
  (7.172191381865589e-2, -7.172191381865591e-2, -7.172191381865592e-2, 3.703703703703706e-2),
  (-7.172191381865589e-2, 2.081668171172169e-17, -7.172191381865589e-2, 3.703703703703708e-2),
  (0.000000000000000, 0.000000000000000, -7.172191381865589e-2, 3.703703703703708e-2),
  (7.172191381865589e-2, 1.387778780781446e-17, -7.172191381865589e-2, 3.703703703703707e-2),
  (-7.172191381865589e-2, 7.172191381865591e-2, -7.172191381865589e-2, 3.703703703703709e-2),
  (0.000000000000000, 7.172191381865591e-2, -7.172191381865591e-2, 3.703703703703708e-2),
  (7.172191381865589e-2, 7.172191381865591e-2, -7.172191381865589e-2, 3.703703703703709e-2),
  (-7.172191381865589e-2, -7.172191381865589e-2, -2.775557561562891e-17, 3.703703703703703e-2),
  (0.000000000000000, -7.172191381865586e-2, -6.938893903907228e-18, 3.703703703703703e-2),
  (7.172191381865589e-2, -7.172191381865591e-2, -1.387778780781446e-17, 3.703703703703703e-2),
  (-7.172191381865589e-2, 2.659175150280490e-18, 1.082140139430786e-18, 3.703703703703706e-2),
  (0.000000000000000, -3.204251063349822e-19, -1.622456720000829e-18, 3.703703703703704e-2),
  (7.172191381865589e-2, 2.593636424395281e-18, 1.291604810729439e-18, 3.703703703703705e-2),
  (-7.172191381865589e-2, 7.172191381865589e-2, 2.081668171172169e-17, 3.703703703703706e-2),
  (0.000000000000000, 7.172191381865589e-2, 2.081668171172169e-17, 3.703703703703706e-2),
  (7.172191381865589e-2, 7.172191381865589e-2, 1.387778780781446e-17, 3.703703703703706e-2),
  (-7.172191381865589e-2, -7.172191381865591e-2, 7.172191381865589e-2, 3.703703703703701e-2),
  (0.000000000000000, -7.172191381865591e-2, 7.172191381865589e-2, 3.703703703703701e-2),
  (7.172191381865589e-2, -7.172191381865591e-2, 7.172191381865589e-2, 3.703703703703701e-2),
  (-7.172191381865589e-2, 0.000000000000000, 7.172191381865589e-2, 3.703703703703703e-2),
  (0.000000000000000, -6.938893903907228e-18, 7.172191381865589e-2, 3.703703703703701e-2),
  (7.172191381865589e-2, -6.938893903907228e-18, 7.172191381865592e-2, 3.703703703703703e-2),
  (-7.172191381865589e-2, 7.172191381865588e-2, 7.172191381865589e-2, 3.703703703703703e-2),
  (0.000000000000000, 7.172191381865588e-2, 7.172191381865589e-2, 3.703703703703705e-2),
  (7.172191381865589e-2, 7.172191381865588e-2, 7.172191381865589e-2, 3.703703703703703e-2)]

/-- `TR_PINV_HXI_HEX_LEGENDRE_64` — get_extrap_matrix.rs:651-716. -/
def trHexLegendre64 : List GaussRow := [
  (-3.139559469353317e-2, -3.139559469353318e-2, -3.139559469353316e-2, 1.562500000000000e-2),
  (-1.239514221403122e-2, -3.139559469353315e-2, -3.139559469353317e-2, 1.562499999999999e-2),
  (1.239514221403122e-2, -3.139559469353317e-2, -3.139559469353320e-2, 1.562500000000000e-2),
  (3.139559469353316e-2, -3.139559469353317e-2, -3.139559469353317e-2, 1.562500000000001e-2),
  (-3.139559469353316e-2, -1.239514221403122e-2, -3.139559469353317e-2, 1.562499999999999e-2),
  (-1.239514221403122e-2, -1.239514221403122e-2, -3.139559469353317e-2, 1.562499999999999e-2),
  (1.239514221403122e-2, -1.239514221403121e-2, -3.139559469353317e-2, 1.562499999999999e-2),
  (3.139559469353316e-2, -1.239514221403122e-2, -3.139559469353318e-2, 1.562499999999999e-2),
  (-3.139559469353316e-2, 1.239514221403122e-2, -3.139559469353317e-2, 1.562500000000000e-2),
  (-1.239514221403122e-2, 1.239514221403121e-2, -3.139559469353318e-2, 1.562499999999999e-2),
  (1.239514221403122e-2, 1.239514221403122e-2, -3.139559469353317e-2, 1.562499999999999e-2),
  (3.139559469353316e-2, 1.239514221403122e-2, -3.139559469353317e-2, 1.562499999999999e-2),
  (-3.139559469353316e-2, 3.139559469353317e-2, -3.139559469353317e-2, 1.562500000000000e-2),
  (-1.239514221403122e-2, 3.139559469353317e-2, -3.139559469353317e-2, 1.562500000000000e-2),
  (1.239514221403122e-2, 3.139559469353317e-2, -3.139559469353319e-2, 1.562500000000000e-2),
  (3.139559469353316e-2, 3.139559469353317e-2, -3.139559469353317e-2, 1.562499999999999e-2),
  (-3.139559469353316e-2, -3.139559469353317e-2, -1.239514221403122e-2, 1.562499999999999e-2),
  (-1.239514221403122e-2, -3.139559469353317e-2, -1.239514221403122e-2, 1.562499999999999e-2),
  (1.239514221403122e-2, -3.139559469353317e-2, -1.239514221403122e-2, 1.562499999999999e-2),
  (3.139559469353316e-2, -3.139559469353317e-2, -1.239514221403122e-2, 1.562499999999999e-2),
  (-3.139559469353316e-2, -1.239514221403122e-2, -1.239514221403122e-2, 1.562499999999999e-2),
  (-1.239514221403122e-2, -1.239514221403122e-2, -1.239514221403122e-2, 1.562499999999999e-2),
  (1.239514221403122e-2, -1.239514221403121e-2, -1.239514221403123e-2, 1.562499999999999e-2),
  (3.139559469353316e-2, -1.239514221403122e-2, -1.239514221403122e-2, 1.562499999999999e-2),
  (-3.139559469353316e-2, 1.239514221403122e-2, -1.239514221403122e-2, 1.562500000000000e-2),
  (-1.239514221403122e-2, 1.239514221403121e-2, -1.239514221403122e-2, 1.562500000000000e-2),
  (1.239514221403122e-2, 1.239514221403122e-2, -1.239514221403122e-2, 1.562499999999999e-2),
  (3.139559469353316e-2, 1.239514221403122e-2, -1.239514221403122e-2, 1.562499999999999e-2),
  (-3.139559469353316e-2, 3.139559469353317e-2, -1.239514221403122e-2, 1.562499999999999e-2),
  (-1.239514221403122e-2, 3.139559469353317e-2, -1.239514221403122e-2, 1.562499999999999e-2),
  (1.239514221403122e-2, 3.139559469353317e-2, -1.239514221403122e-2, 1.562500000000000e-2),
  (3.139559469353316e-2, 3.139559469353317e-2, -1.239514221403122e-2, 1.562500000000000e-2),
  (-3.139559469353316e-2, -3.139559469353317e-2, 1.239514221403123e-2, 1.562499999999999e-2),
  (-1.239514221403122e-2, -3.139559469353317e-2, 1.239514221403122e-2, 1.562500000000000e-2),
  (1.239514221403122e-2, -3.139559469353317e-2, 1.239514221403122e-2, 1.562499999999999e-2),
  (3.139559469353316e-2, -3.139559469353317e-2, 1.239514221403122e-2, 1.562499999999999e-2),
  (-3.139559469353316e-2, -1.239514221403122e-2, 1.239514221403122e-2, 1.562499999999999e-2),
  (-1.239514221403122e-2, -1.239514221403122e-2, 1.239514221403122e-2, 1.562499999999999e-2),
  (1.239514221403122e-2, -1.239514221403121e-2, 1.239514221403122e-2, 1.562499999999999e-2),
  (3.139559469353316e-2, -1.239514221403122e-2, 1.239514221403122e-2, 1.562500000000000e-2),
  (-3.139559469353316e-2, 1.239514221403122e-2, 1.239514221403122e-2, 1.562500000000000e-2),
  (-1.239514221403122e-2, 1.239514221403121e-2, 1.239514221403123e-2, 1.562499999999999e-2),
  (1.239514221403122e-2, 1.239514221403122e-2, 1.239514221403122e-2, 1.562499999999999e-2),
  (3.139559469353316e-2, 1.239514221403122e-2, 1.239514221403122e-2, 1.562499999999999e-2),
  (-3.139559469353316e-2, 3.139559469353317e-2, 1.239514221403122e-2, 1.562499999999999e-2),
  (-1.239514221403122e-2, 3.139559469353317e-2, 1.239514221403123e-2, 1.562500000000000e-2),
  (1.239514221403122e-2, 3.139559469353317e-2, 1.239514221403122e-2, 1.562500000000000e-2),
  (3.139559469353316e-2, 3.139559469353317e-2, 1.239514221403122e-2, 1.562499999999999e-2),
  (-3.139559469353316e-2, -3.139559469353317e-2, 3.139559469353317e-2, 1.562499999999999e-2),
  (-1.239514221403122e-2, -3.139559469353317e-2, 3.139559469353319e-2, 1.562500000000000e-2),
  (1.239514221403122e-2, -3.139559469353317e-2, 3.139559469353317e-2, 1.562499999999999e-2),
  (3.139559469353316e-2, -3.139559469353317e-2, 3.139559469353317e-2, 1.562499999999999e-2),
  (-3.139559469353316e-2, -1.239514221403122e-2, 3.139559469353317e-2, 1.562499999999999e-2),
  (-1.239514221403122e-2, -1.239514221403122e-2, 3.139559469353317e-2, 1.562499999999999e-2),
  (1.239514221403122e-2, -1.239514221403121e-2, 3.139559469353318e-2, 1.562500000000000e-2),
  (3.139559469353316e-2, -1.239514221403122e-2, 3.139559469353317e-2, 1.562499999999999e-2),
  (-3.139559469353316e-2, 1.239514221403122e-2, 3.139559469353318e-2, 1.562500000000000e-2),
  (-1.239514221403122e-2, 1.239514221403121e-2, 3.139559469353317e-2, 1.562499999999999e-2),
  (1.239514221403122e-2, 1.239514221403122e-2, 3.139559469353317e-2, 1.562499999999999e-2),
  (3.139559469353316e-2, 1.239514221403122e-2, 3.139559469353317e-2, 1.562499999999999e-2),
  (-3.139559469353316e-2, 3.139559469353317e-2, 3.139559469353317e-2, 1.562500000000000e-2),
  (-1.239514221403122e-2, 3.139559469353317e-2, 3.139559469353318e-2, 1.562499999999999e-2),
  (1.239514221403122e-2, 3.139559469353317e-2, 3.139559469353317e-2, 1.562500000000000e-2),
  (3.139559469353316e-2, 3.139559469353317e-2, 3.139559469353317e-2, 1.562499999999999e-2)]

end RecoveryTab

open RecoveryTab in
/-- `get_tr_pinv_hxi` — get_extrap_matrix.rs:221-272 (`unreachable!` is a panic). -/
def getTrPinvHxi (cls : GeoClass) (ngauss : Nat) : Res (List GaussRow) :=
  match cls, ngauss with
  | .lin, 1 => .ok trLinLegendre1
  | .lin, 2 => .ok trLinLegendre2
  | .lin, 3 => .ok trLinLegendre3
  | .lin, 4 => .ok trLinLegendre4
  | .lin, 5 => .ok trLinLegendre5
  | .tri, 1 => .ok trTriInternal1
  | .tri, 3 => .ok trTriInternal3
  | .tri, 4 => .ok trTriInternal4
  | .tri, 6 => .ok trTriFelippa6
  | .tri, 7 => .ok trTriFelippa7
  | .tri, 12 => .ok trTriInternal12
  | .tri, 16 => .ok trTriInternal16
  | .qua, 1 => .ok trQuaLegendre1
  | .qua, 4 => .ok trQuaLegendre4
  | .qua, 9 => .ok trQuaLegendre9
  | .qua, 16 => .ok trQuaLegendre16
  | .tet, 1 => .ok trTetInternal1
  | .tet, 4 => .ok trTetInternal4
  | .tet, 5 => .ok trTetInternal5
  | .tet, 8 => .ok trTetFelippa8
  | .tet, 14 => .ok trTetFelippa14
  | .tet, 15 => .ok trTetFelippa15
  | .tet, 24 => .ok trTetFelippa24
  | .hex, 6 => .ok trHexIrons6
  | .hex, 8 => .ok trHexLegendre8
  | .hex, 14 => .ok trHexIrons14
  | .hex, 27 => .ok trHexLegendre27
  | .hex, 64 => .ok trHexLegendre64
  | _, _ => .panic

end Gemlab
