import Mathlib.Data.Real.Basic
import Verif.Model.Integ
import Verif.Model.GeoKind

/-!
# Model of `src/integ/gauss.rs`: integration-point tables and their selection

GENERATED by `tools/gen_gauss.py` from the tables in `/repo/src/integ/gauss.rs`.

Every entry is the rational number denoted by the source literal, digit by digit (`1.0 / 3.0` is
the exact quotient). Simplification: in Rust the entries are `f64`, that is, the literals rounded
to the nearest double; the optional fields `ksi_hat`, `ksi_hat_inv` (always `None` at construction)
are not part of this model.
-/

namespace Gemlab

/-- One row `[f64; 4]` of a table: the three coordinates and the weight — gauss.rs:53-59. -/
abbrev GaussRow := ℚ × ℚ × ℚ × ℚ

namespace GaussTab

/-- `IP_LIN_LEGENDRE_1` — gauss.rs:317-319. -/
def ipLinLegendre1 : List GaussRow := [
  (0.0, 0.0, 0.0, 2.0)]

/-- `IP_LIN_LEGENDRE_2` — gauss.rs:323-326. -/
def ipLinLegendre2 : List GaussRow := [
  (-0.5773502691896257, 0.0, 0.0, 1.0),
  (0.5773502691896257, 0.0, 0.0, 1.0)]

/-- `IP_LIN_LEGENDRE_3` — gauss.rs:330-334. -/
def ipLinLegendre3 : List GaussRow := [
  (-0.7745966692414834, 0.0, 0.0, 0.5555555555555556),
  (0.0000000000000000, 0.0, 0.0, 0.8888888888888888),
  (0.7745966692414834, 0.0, 0.0, 0.5555555555555556)]

/-- `IP_LIN_LEGENDRE_4` — gauss.rs:338-343. -/
def ipLinLegendre4 : List GaussRow := [
  (-0.8611363115940526, 0.0, 0.0, 0.3478548451374538),
  (-0.3399810435848562, 0.0, 0.0, 0.6521451548625462),
  (0.3399810435848562, 0.0, 0.0, 0.6521451548625462),
  (0.8611363115940526, 0.0, 0.0, 0.3478548451374538)]

/-- `IP_LIN_LEGENDRE_5` — gauss.rs:347-353. -/
def ipLinLegendre5 : List GaussRow := [
  (-0.9061798459386640, 0.0, 0.0, 0.2369268850561891),
  (-0.5384693101056831, 0.0, 0.0, 0.4786286704993665),
  (0.0000000000000000, 0.0, 0.0, 0.5688888888888889),
  (0.5384693101056831, 0.0, 0.0, 0.4786286704993665),
  (0.9061798459386640, 0.0, 0.0, 0.2369268850561891)]

/-- `IP_TRI_INTERNAL_1` — gauss.rs:361-363. -/
def ipTriInternal1 : List GaussRow := [
  (1.0 / 3.0, 1.0 / 3.0, 0.0, 1.0 / 2.0)]

/-- `IP_TRI_INTERNAL_3` — gauss.rs:367-371. -/
def ipTriInternal3 : List GaussRow := [
  (1.0 / 6.0, 1.0 / 6.0, 0.0, 1.0 / 6.0),
  (2.0 / 3.0, 1.0 / 6.0, 0.0, 1.0 / 6.0),
  (1.0 / 6.0, 2.0 / 3.0, 0.0, 1.0 / 6.0)]

/-- `IP_TRI_INTERNAL_4` — gauss.rs:375-380. -/
def ipTriInternal4 : List GaussRow := [
  (1.0 / 3.0, 1.0 / 3.0, 0.0, -27.0 / 96.0),
  (1.0 / 5.0, 1.0 / 5.0, 0.0, 25.0 / 96.0),
  (3.0 / 5.0, 1.0 / 5.0, 0.0, 25.0 / 96.0),
  (1.0 / 5.0, 3.0 / 5.0, 0.0, 25.0 / 96.0)]

/-- `IP_TRI_FELIPPA_6` — gauss.rs:384-391. -/
def ipTriFelippa6 : List GaussRow := [
  (0.44594849091596488632, 0.44594849091596488632, 0.0, 0.11169079483900573285),
  (0.10810301816807022736, 0.44594849091596488632, 0.0, 0.11169079483900573285),
  (0.44594849091596488632, 0.10810301816807022736, 0.0, 0.11169079483900573285),
  (0.091576213509770743460, 0.091576213509770743460, 0.0, 0.054975871827660933819),
  (0.81684757298045851308, 0.091576213509770743460, 0.0, 0.054975871827660933819),
  (0.091576213509770743460, 0.81684757298045851308, 0.0, 0.054975871827660933819)]

/-- `IP_TRI_FELIPPA_7` — gauss.rs:395-403. -/
def ipTriFelippa7 : List GaussRow := [
  (0.10128650732345633880, 0.10128650732345633880, 0.0, 0.062969590272413576298),
  (0.79742698535308732240, 0.10128650732345633880, 0.0, 0.062969590272413576298),
  (0.10128650732345633880, 0.79742698535308732240, 0.0, 0.062969590272413576298),
  (0.47014206410511508977, 0.47014206410511508977, 0.0, 0.066197076394253090369),
  (0.059715871789769820459, 0.47014206410511508977, 0.0, 0.066197076394253090369),
  (0.47014206410511508977, 0.059715871789769820459, 0.0, 0.066197076394253090369),
  (0.33333333333333333333, 0.33333333333333333333, 0.0, 0.11250000000000000000)]

/-- `IP_TRI_INTERNAL_12` — gauss.rs:407-420. -/
def ipTriInternal12 : List GaussRow := [
  (0.873821971016996, 0.063089014491502, 0.0, 0.0254224531851035),
  (0.063089014491502, 0.873821971016996, 0.0, 0.0254224531851035),
  (0.063089014491502, 0.063089014491502, 0.0, 0.0254224531851035),
  (0.501426509658179, 0.249286745170910, 0.0, 0.0583931378631895),
  (0.249286745170910, 0.501426509658179, 0.0, 0.0583931378631895),
  (0.249286745170910, 0.249286745170910, 0.0, 0.0583931378631895),
  (0.053145049844817, 0.310352451033784, 0.0, 0.041425537809187),
  (0.310352451033784, 0.053145049844817, 0.0, 0.041425537809187),
  (0.053145049844817, 0.636502499121398, 0.0, 0.041425537809187),
  (0.310352451033784, 0.636502499121398, 0.0, 0.041425537809187),
  (0.636502499121398, 0.053145049844817, 0.0, 0.041425537809187),
  (0.636502499121398, 0.310352451033784, 0.0, 0.041425537809187)]

/-- `IP_TRI_INTERNAL_16` — gauss.rs:424-441. -/
def ipTriInternal16 : List GaussRow := [
  (3.33333333333333e-01, 3.33333333333333e-01, 0.0, 7.21578038388935e-02),
  (8.14148234145540e-02, 4.59292588292723e-01, 0.0, 4.75458171336425e-02),
  (4.59292588292723e-01, 8.14148234145540e-02, 0.0, 4.75458171336425e-02),
  (4.59292588292723e-01, 4.59292588292723e-01, 0.0, 4.75458171336425e-02),
  (6.58861384496480e-01, 1.70569307751760e-01, 0.0, 5.16086852673590e-02),
  (1.70569307751760e-01, 6.58861384496480e-01, 0.0, 5.16086852673590e-02),
  (1.70569307751760e-01, 1.70569307751760e-01, 0.0, 5.16086852673590e-02),
  (8.98905543365938e-01, 5.05472283170310e-02, 0.0, 1.62292488115990e-02),
  (5.05472283170310e-02, 8.98905543365938e-01, 0.0, 1.62292488115990e-02),
  (5.05472283170310e-02, 5.05472283170310e-02, 0.0, 1.62292488115990e-02),
  (8.39477740995800e-03, 2.63112829634638e-01, 0.0, 1.36151570872175e-02),
  (7.28492392955404e-01, 8.39477740995800e-03, 0.0, 1.36151570872175e-02),
  (2.63112829634638e-01, 7.28492392955404e-01, 0.0, 1.36151570872175e-02),
  (8.39477740995800e-03, 7.28492392955404e-01, 0.0, 1.36151570872175e-02),
  (7.28492392955404e-01, 2.63112829634638e-01, 0.0, 1.36151570872175e-02),
  (2.63112829634638e-01, 8.39477740995800e-03, 0.0, 1.36151570872175e-02)]

/-- `IP_QUA_LEGENDRE_1` — gauss.rs:449-451. -/
def ipQuaLegendre1 : List GaussRow := [
  (0.0, 0.0, 0.0, 4.0)]

/-- `IP_QUA_LEGENDRE_4` — gauss.rs:455-460. -/
def ipQuaLegendre4 : List GaussRow := [
  (-0.5773502691896257, -0.5773502691896257, 0.0, 1.0),
  (0.5773502691896257, -0.5773502691896257, 0.0, 1.0),
  (-0.5773502691896257, 0.5773502691896257, 0.0, 1.0),
  (0.5773502691896257, 0.5773502691896257, 0.0, 1.0)]

/-- `IP_QUA_LEGENDRE_9` — gauss.rs:464-474. -/
def ipQuaLegendre9 : List GaussRow := [
  (-0.7745966692414834, -0.7745966692414834, 0.0, 25.0 / 81.0),
  (0.0000000000000000, -0.7745966692414834, 0.0, 40.0 / 81.0),
  (0.7745966692414834, -0.7745966692414834, 0.0, 25.0 / 81.0),
  (-0.7745966692414834, 0.0000000000000000, 0.0, 40.0 / 81.0),
  (0.0000000000000000, 0.0000000000000000, 0.0, 64.0 / 81.0),
  (0.7745966692414834, 0.0000000000000000, 0.0, 40.0 / 81.0),
  (-0.7745966692414834, 0.7745966692414834, 0.0, 25.0 / 81.0),
  (0.0000000000000000, 0.7745966692414834, 0.0, 40.0 / 81.0),
  (0.7745966692414834, 0.7745966692414834, 0.0, 25.0 / 81.0)]

/-- `IP_QUA_LEGENDRE_16` — gauss.rs:478-495. -/
def ipQuaLegendre16 : List GaussRow := [
  (-0.8611363115940526, -0.8611363115940526, 0.0, 0.1210029932856019),
  (-0.3399810435848563, -0.8611363115940526, 0.0, 0.2268518518518519),
  (0.3399810435848563, -0.8611363115940526, 0.0, 0.2268518518518519),
  (0.8611363115940526, -0.8611363115940526, 0.0, 0.1210029932856019),
  (-0.8611363115940526, -0.3399810435848563, 0.0, 0.2268518518518519),
  (-0.3399810435848563, -0.3399810435848563, 0.0, 0.4252933030106947),
  (0.3399810435848563, -0.3399810435848563, 0.0, 0.4252933030106947),
  (0.8611363115940526, -0.3399810435848563, 0.0, 0.2268518518518519),
  (-0.8611363115940526, 0.3399810435848563, 0.0, 0.2268518518518519),
  (-0.3399810435848563, 0.3399810435848563, 0.0, 0.4252933030106947),
  (0.3399810435848563, 0.3399810435848563, 0.0, 0.4252933030106947),
  (0.8611363115940526, 0.3399810435848563, 0.0, 0.2268518518518519),
  (-0.8611363115940526, 0.8611363115940526, 0.0, 0.1210029932856019),
  (-0.3399810435848563, 0.8611363115940526, 0.0, 0.2268518518518519),
  (0.3399810435848563, 0.8611363115940526, 0.0, 0.2268518518518519),
  (0.8611363115940526, 0.8611363115940526, 0.0, 0.1210029932856019)]

/-- `IP_TET_INTERNAL_1` — gauss.rs:506-508. -/
def ipTetInternal1 : List GaussRow := [
  (1.0 / 4.0, 1.0 / 4.0, 1.0 / 4.0, 1.0 / 6.0)]

/-- `IP_TET_INTERNAL_4` — gauss.rs:515-520. -/
def ipTetInternal4 : List GaussRow := [
  (0.13819660112501051518, 0.13819660112501051518, 0.13819660112501051518, 0.041666666666666666667),
  (0.58541019662496845446, 0.13819660112501051518, 0.13819660112501051518, 0.041666666666666666667),
  (0.13819660112501051518, 0.58541019662496845446, 0.13819660112501051518, 0.041666666666666666667),
  (0.13819660112501051518, 0.13819660112501051518, 0.58541019662496845446, 0.041666666666666666667)]

/-- `IP_TET_INTERNAL_5` — gauss.rs:527-533. -/
def ipTetInternal5 : List GaussRow := [
  (1.0 / 4.0, 1.0 / 4.0, 1.0 / 4.0, -2.0 / 15.0),
  (1.0 / 6.0, 1.0 / 6.0, 1.0 / 6.0, 3.0 / 40.0),
  (1.0 / 6.0, 1.0 / 6.0, 1.0 / 2.0, 3.0 / 40.0),
  (1.0 / 6.0, 1.0 / 2.0, 1.0 / 6.0, 3.0 / 40.0),
  (1.0 / 2.0, 1.0 / 6.0, 1.0 / 6.0, 3.0 / 40.0)]

/-- `IP_TET_FELIPPA_8` — gauss.rs:540-549. -/
def ipTetFelippa8 : List GaussRow := [
  (0.32805469671142664734, 0.32805469671142664734, 0.32805469671142664734, 0.023087994418643690387),
  (0.015835909865720057993, 0.32805469671142664734, 0.32805469671142664734, 0.023087994418643690387),
  (0.32805469671142664734, 0.015835909865720057993, 0.32805469671142664734, 0.023087994418643690387),
  (0.32805469671142664734, 0.32805469671142664734, 0.015835909865720057993, 0.023087994418643690387),
  (0.10695227393293068277, 0.10695227393293068277, 0.10695227393293068277, 0.018578672248022976279),
  (0.67914317820120795168, 0.10695227393293068277, 0.10695227393293068277, 0.018578672248022976279),
  (0.10695227393293068277, 0.67914317820120795168, 0.10695227393293068277, 0.018578672248022976279),
  (0.10695227393293068277, 0.10695227393293068277, 0.67914317820120795168, 0.018578672248022976279)]

/-- `IP_TET_FELIPPA_14` — gauss.rs:556-571. -/
def ipTetFelippa14 : List GaussRow := [
  (0.092735250310891226402, 0.092735250310891226402, 0.092735250310891226402, 0.012248840519393658257),
  (0.72179424906732632079, 0.092735250310891226402, 0.092735250310891226402, 0.012248840519393658257),
  (0.092735250310891226402, 0.72179424906732632079, 0.092735250310891226402, 0.012248840519393658257),
  (0.092735250310891226402, 0.092735250310891226402, 0.72179424906732632079, 0.012248840519393658257),
  (0.31088591926330060980, 0.31088591926330060980, 0.31088591926330060980, 0.018781320953002641800),
  (0.067342242210098170608, 0.31088591926330060980, 0.31088591926330060980, 0.018781320953002641800),
  (0.31088591926330060980, 0.067342242210098170608, 0.31088591926330060980, 0.018781320953002641800),
  (0.31088591926330060980, 0.31088591926330060980, 0.067342242210098170608, 0.018781320953002641800),
  (0.045503704125649649492, 0.45449629587435035051, 0.45449629587435035051, 0.0070910034628469110730),
  (0.45449629587435035051, 0.045503704125649649492, 0.45449629587435035051, 0.0070910034628469110730),
  (0.45449629587435035051, 0.45449629587435035051, 0.045503704125649649492, 0.0070910034628469110730),
  (0.045503704125649649492, 0.045503704125649649492, 0.45449629587435035051, 0.0070910034628469110730),
  (0.045503704125649649492, 0.45449629587435035051, 0.045503704125649649492, 0.0070910034628469110730),
  (0.45449629587435035051, 0.045503704125649649492, 0.045503704125649649492, 0.0070910034628469110730)]

/-- `IP_TET_FELIPPA_15` — gauss.rs:578-594. -/
def ipTetFelippa15 : List GaussRow := [
  (0.091971078052723032789, 0.091971078052723032789, 0.091971078052723032789, 0.011989513963169770002),
  (0.72408676584183090163, 0.091971078052723032789, 0.091971078052723032789, 0.011989513963169770002),
  (0.091971078052723032789, 0.72408676584183090163, 0.091971078052723032789, 0.011989513963169770002),
  (0.091971078052723032789, 0.091971078052723032789, 0.72408676584183090163, 0.011989513963169770002),
  (0.31979362782962990839, 0.31979362782962990839, 0.31979362782962990839, 0.011511367871045397547),
  (0.040619116511110274837, 0.31979362782962990839, 0.31979362782962990839, 0.011511367871045397547),
  (0.31979362782962990839, 0.040619116511110274837, 0.31979362782962990839, 0.011511367871045397547),
  (0.31979362782962990839, 0.31979362782962990839, 0.040619116511110274837, 0.011511367871045397547),
  (0.44364916731037084426, 0.056350832689629155741, 0.056350832689629155741, 0.0088183421516754850088),
  (0.056350832689629155741, 0.44364916731037084426, 0.056350832689629155741, 0.0088183421516754850088),
  (0.056350832689629155741, 0.056350832689629155741, 0.44364916731037084426, 0.0088183421516754850088),
  (0.44364916731037084426, 0.44364916731037084426, 0.056350832689629155741, 0.0088183421516754850088),
  (0.44364916731037084426, 0.056350832689629155741, 0.44364916731037084426, 0.0088183421516754850088),
  (0.056350832689629155741, 0.44364916731037084426, 0.44364916731037084426, 0.0088183421516754850088),
  (0.25000000000000000000, 0.25000000000000000000, 0.25000000000000000000, 0.019753086419753086420)]

/-- `IP_TET_FELIPPA_24` — gauss.rs:601-626. -/
def ipTetFelippa24 : List GaussRow := [
  (0.21460287125915202929, 0.21460287125915202929, 0.21460287125915202929, 0.0066537917096945820166),
  (0.35619138622254391213, 0.21460287125915202929, 0.21460287125915202929, 0.0066537917096945820166),
  (0.21460287125915202929, 0.35619138622254391213, 0.21460287125915202929, 0.0066537917096945820166),
  (0.21460287125915202929, 0.21460287125915202929, 0.35619138622254391213, 0.0066537917096945820166),
  (0.040673958534611353116, 0.040673958534611353116, 0.040673958534611353116, 0.0016795351758867738247),
  (0.87797812439616594065, 0.040673958534611353116, 0.040673958534611353116, 0.0016795351758867738247),
  (0.040673958534611353116, 0.87797812439616594065, 0.040673958534611353116, 0.0016795351758867738247),
  (0.040673958534611353116, 0.040673958534611353116, 0.87797812439616594065, 0.0016795351758867738247),
  (0.32233789014227551034, 0.32233789014227551034, 0.32233789014227551034, 0.0092261969239424536825),
  (0.032986329573173468968, 0.32233789014227551034, 0.32233789014227551034, 0.0092261969239424536825),
  (0.32233789014227551034, 0.032986329573173468968, 0.32233789014227551034, 0.0092261969239424536825),
  (0.32233789014227551034, 0.32233789014227551034, 0.032986329573173468968, 0.0092261969239424536825),
  (0.26967233145831580803, 0.063661001875017525299, 0.063661001875017525299, 0.0080357142857142857143),
  (0.063661001875017525299, 0.26967233145831580803, 0.063661001875017525299, 0.0080357142857142857143),
  (0.063661001875017525299, 0.063661001875017525299, 0.26967233145831580803, 0.0080357142857142857143),
  (0.60300566479164914137, 0.26967233145831580803, 0.063661001875017525299, 0.0080357142857142857143),
  (0.60300566479164914137, 0.063661001875017525299, 0.26967233145831580803, 0.0080357142857142857143),
  (0.063661001875017525299, 0.60300566479164914137, 0.26967233145831580803, 0.0080357142857142857143),
  (0.60300566479164914137, 0.063661001875017525299, 0.063661001875017525299, 0.0080357142857142857143),
  (0.063661001875017525299, 0.60300566479164914137, 0.063661001875017525299, 0.0080357142857142857143),
  (0.063661001875017525299, 0.063661001875017525299, 0.60300566479164914137, 0.0080357142857142857143),
  (0.26967233145831580803, 0.60300566479164914137, 0.063661001875017525299, 0.0080357142857142857143),
  (0.26967233145831580803, 0.063661001875017525299, 0.60300566479164914137, 0.0080357142857142857143),
  (0.063661001875017525299, 0.26967233145831580803, 0.60300566479164914137, 0.0080357142857142857143)]

/-- `IP_HEX_IRONS_6` — gauss.rs:634-641. -/
def ipHexIrons6 : List GaussRow := [
  (-1.0, 0.0, 0.0, 4.0 / 3.0),
  (1.0, 0.0, 0.0, 4.0 / 3.0),
  (0.0, -1.0, 0.0, 4.0 / 3.0),
  (0.0, 1.0, 0.0, 4.0 / 3.0),
  (0.0, 0.0, -1.0, 4.0 / 3.0),
  (0.0, 0.0, 1.0, 4.0 / 3.0)]

/-- `IP_HEX_LEGENDRE_8` — gauss.rs:645-654. -/
def ipHexLegendre8 : List GaussRow := [
  (-0.5773502691896257, -0.5773502691896257, -0.5773502691896257, 1.0),
  (0.5773502691896257, -0.5773502691896257, -0.5773502691896257, 1.0),
  (-0.5773502691896257, 0.5773502691896257, -0.5773502691896257, 1.0),
  (0.5773502691896257, 0.5773502691896257, -0.5773502691896257, 1.0),
  (-0.5773502691896257, -0.5773502691896257, 0.5773502691896257, 1.0),
  (0.5773502691896257, -0.5773502691896257, 0.5773502691896257, 1.0),
  (-0.5773502691896257, 0.5773502691896257, 0.5773502691896257, 1.0),
  (0.5773502691896257, 0.5773502691896257, 0.5773502691896257, 1.0)]

/-- `IP_HEX_IRONS_14` — gauss.rs:658-673. -/
def ipHexIrons14 : List GaussRow := [
  (0.7958224257542215, 0.0000000000000000, 0.0000000000000000, 0.8864265927977839),
  (-0.7958224257542215, 0.0000000000000000, 0.0000000000000000, 0.8864265927977839),
  (0.0000000000000000, 0.7958224257542215, 0.0000000000000000, 0.8864265927977839),
  (0.0000000000000000, -0.7958224257542215, 0.0000000000000000, 0.8864265927977839),
  (0.0000000000000000, 0.0000000000000000, 0.7958224257542215, 0.8864265927977839),
  (0.0000000000000000, 0.0000000000000000, -0.7958224257542215, 0.8864265927977839),
  (0.7587869106393281, 0.7587869106393281, 0.7587869106393281, 0.3351800554016621),
  (-0.7587869106393281, 0.7587869106393281, 0.7587869106393281, 0.3351800554016621),
  (0.7587869106393281, -0.7587869106393281, 0.7587869106393281, 0.3351800554016621),
  (-0.7587869106393281, -0.7587869106393281, 0.7587869106393281, 0.3351800554016621),
  (0.7587869106393281, 0.7587869106393281, -0.7587869106393281, 0.3351800554016621),
  (-0.7587869106393281, 0.7587869106393281, -0.7587869106393281, 0.3351800554016621),
  (0.7587869106393281, -0.7587869106393281, -0.7587869106393281, 0.3351800554016621),
  (-0.7587869106393281, -0.7587869106393281, -0.7587869106393281, 0.3351800554016621)]

/-- `IP_HEX_LEGENDRE_27` — gauss.rs:677-705. -/
def ipHexLegendre27 : List GaussRow := [
  (-0.774596669241483, -0.774596669241483, -0.774596669241483, 0.171467764060357),
  (0.000000000000000, -0.774596669241483, -0.774596669241483, 0.274348422496571),
  (0.774596669241483, -0.774596669241483, -0.774596669241483, 0.171467764060357),
  (-0.774596669241483, 0.000000000000000, -0.774596669241483, 0.274348422496571),
  (0.000000000000000, 0.000000000000000, -0.774596669241483, 0.438957475994513),
  (0.774596669241483, 0.000000000000000, -0.774596669241483, 0.274348422496571),
  (-0.774596669241483, 0.774596669241483, -0.774596669241483, 0.171467764060357),
  (0.000000000000000, 0.774596669241483, -0.774596669241483, 0.274348422496571),
  (0.774596669241483, 0.774596669241483, -0.774596669241483, 0.171467764060357),
  (-0.774596669241483, -0.774596669241483, 0.000000000000000, 0.274348422496571),
  (0.000000000000000, -0.774596669241483, 0.000000000000000, 0.438957475994513),
  (0.774596669241483, -0.774596669241483, 0.000000000000000, 0.274348422496571),
  (-0.774596669241483, 0.000000000000000, 0.000000000000000, 0.438957475994513),
  (0.000000000000000, 0.000000000000000, 0.000000000000000, 0.702331961591221),
  (0.774596669241483, 0.000000000000000, 0.000000000000000, 0.438957475994513),
  (-0.774596669241483, 0.774596669241483, 0.000000000000000, 0.274348422496571),
  (0.000000000000000, 0.774596669241483, 0.000000000000000, 0.438957475994513),
  (0.774596669241483, 0.774596669241483, 0.000000000000000, 0.274348422496571),
  (-0.774596669241483, -0.774596669241483, 0.774596669241483, 0.171467764060357),
  (0.000000000000000, -0.774596669241483, 0.774596669241483, 0.274348422496571),
  (0.774596669241483, -0.774596669241483, 0.774596669241483, 0.171467764060357),
  (-0.774596669241483, 0.000000000000000, 0.774596669241483, 0.274348422496571),
  (0.000000000000000, 0.000000000000000, 0.774596669241483, 0.438957475994513),
  (0.774596669241483, 0.000000000000000, 0.774596669241483, 0.274348422496571),
  (-0.774596669241483, 0.774596669241483, 0.774596669241483, 0.171467764060357),
  (0.000000000000000, 0.774596669241483, 0.774596669241483, 0.274348422496571),
  (0.774596669241483, 0.774596669241483, 0.774596669241483, 0.171467764060357)]

/-- `IP_HEX_LEGENDRE_64` — gauss.rs:709-774. -/
def ipHexLegendre64 : List GaussRow := [
  (-0.86113631159405257522, -0.86113631159405257522, -0.86113631159405257522, 0.04209147749053145454),
  (-0.33998104358485626480, -0.86113631159405257522, -0.86113631159405257522, 0.07891151579507055098),
  (0.33998104358485626480, -0.86113631159405257522, -0.86113631159405257522, 0.07891151579507055098),
  (0.86113631159405257522, -0.86113631159405257522, -0.86113631159405257522, 0.04209147749053145454),
  (-0.86113631159405257522, -0.33998104358485626480, -0.86113631159405257522, 0.07891151579507055098),
  (-0.33998104358485626480, -0.33998104358485626480, -0.86113631159405257522, 0.14794033605678130087),
  (0.33998104358485626480, -0.33998104358485626480, -0.86113631159405257522, 0.14794033605678130087),
  (0.86113631159405257522, -0.33998104358485626480, -0.86113631159405257522, 0.07891151579507055098),
  (-0.86113631159405257522, 0.33998104358485626480, -0.86113631159405257522, 0.07891151579507055098),
  (-0.33998104358485626480, 0.33998104358485626480, -0.86113631159405257522, 0.14794033605678130087),
  (0.33998104358485626480, 0.33998104358485626480, -0.86113631159405257522, 0.14794033605678130087),
  (0.86113631159405257522, 0.33998104358485626480, -0.86113631159405257522, 0.07891151579507055098),
  (-0.86113631159405257522, 0.86113631159405257522, -0.86113631159405257522, 0.04209147749053145454),
  (-0.33998104358485626480, 0.86113631159405257522, -0.86113631159405257522, 0.07891151579507055098),
  (0.33998104358485626480, 0.86113631159405257522, -0.86113631159405257522, 0.07891151579507055098),
  (0.86113631159405257522, 0.86113631159405257522, -0.86113631159405257522, 0.04209147749053145454),
  (-0.86113631159405257522, -0.86113631159405257522, -0.33998104358485626480, 0.07891151579507055098),
  (-0.33998104358485626480, -0.86113631159405257522, -0.33998104358485626480, 0.14794033605678130087),
  (0.33998104358485626480, -0.86113631159405257522, -0.33998104358485626480, 0.14794033605678130087),
  (0.86113631159405257522, -0.86113631159405257522, -0.33998104358485626480, 0.07891151579507055098),
  (-0.86113631159405257522, -0.33998104358485626480, -0.33998104358485626480, 0.14794033605678130087),
  (-0.33998104358485626480, -0.33998104358485626480, -0.33998104358485626480, 0.27735296695391298990),
  (0.33998104358485626480, -0.33998104358485626480, -0.33998104358485626480, 0.27735296695391298990),
  (0.86113631159405257522, -0.33998104358485626480, -0.33998104358485626480, 0.14794033605678130087),
  (-0.86113631159405257522, 0.33998104358485626480, -0.33998104358485626480, 0.14794033605678130087),
  (-0.33998104358485626480, 0.33998104358485626480, -0.33998104358485626480, 0.27735296695391298990),
  (0.33998104358485626480, 0.33998104358485626480, -0.33998104358485626480, 0.27735296695391298990),
  (0.86113631159405257522, 0.33998104358485626480, -0.33998104358485626480, 0.14794033605678130087),
  (-0.86113631159405257522, 0.86113631159405257522, -0.33998104358485626480, 0.07891151579507055098),
  (-0.33998104358485626480, 0.86113631159405257522, -0.33998104358485626480, 0.14794033605678130087),
  (0.33998104358485626480, 0.86113631159405257522, -0.33998104358485626480, 0.14794033605678130087),
  (0.86113631159405257522, 0.86113631159405257522, -0.33998104358485626480, 0.07891151579507055098),
  (-0.86113631159405257522, -0.86113631159405257522, 0.33998104358485626480, 0.07891151579507055098),
  (-0.33998104358485626480, -0.86113631159405257522, 0.33998104358485626480, 0.14794033605678130087),
  (0.33998104358485626480, -0.86113631159405257522, 0.33998104358485626480, 0.14794033605678130087),
  (0.86113631159405257522, -0.86113631159405257522, 0.33998104358485626480, 0.07891151579507055098),
  (-0.86113631159405257522, -0.33998104358485626480, 0.33998104358485626480, 0.14794033605678130087),
  (-0.33998104358485626480, -0.33998104358485626480, 0.33998104358485626480, 0.27735296695391298990),
  (0.33998104358485626480, -0.33998104358485626480, 0.33998104358485626480, 0.27735296695391298990),
  (0.86113631159405257522, -0.33998104358485626480, 0.33998104358485626480, 0.14794033605678130087),
  (-0.86113631159405257522, 0.33998104358485626480, 0.33998104358485626480, 0.14794033605678130087),
  (-0.33998104358485626480, 0.33998104358485626480, 0.33998104358485626480, 0.27735296695391298990),
  (0.33998104358485626480, 0.33998104358485626480, 0.33998104358485626480, 0.27735296695391298990),
  (0.86113631159405257522, 0.33998104358485626480, 0.33998104358485626480, 0.14794033605678130087),
  (-0.86113631159405257522, 0.86113631159405257522, 0.33998104358485626480, 0.07891151579507055098),
  (-0.33998104358485626480, 0.86113631159405257522, 0.33998104358485626480, 0.14794033605678130087),
  (0.33998104358485626480, 0.86113631159405257522, 0.33998104358485626480, 0.14794033605678130087),
  (0.86113631159405257522, 0.86113631159405257522, 0.33998104358485626480, 0.07891151579507055098),
  (-0.86113631159405257522, -0.86113631159405257522, 0.86113631159405257522, 0.04209147749053145454),
  (-0.33998104358485626480, -0.86113631159405257522, 0.86113631159405257522, 0.07891151579507055098),
  (0.33998104358485626480, -0.86113631159405257522, 0.86113631159405257522, 0.07891151579507055098),
  (0.86113631159405257522, -0.86113631159405257522, 0.86113631159405257522, 0.04209147749053145454),
  (-0.86113631159405257522, -0.33998104358485626480, 0.86113631159405257522, 0.07891151579507055098),
  (-0.33998104358485626480, -0.33998104358485626480, 0.86113631159405257522, 0.14794033605678130087),
  (0.33998104358485626480, -0.33998104358485626480, 0.86113631159405257522, 0.14794033605678130087),
  (0.86113631159405257522, -0.33998104358485626480, 0.86113631159405257522, 0.07891151579507055098),
  (-0.86113631159405257522, 0.33998104358485626480, 0.86113631159405257522, 0.07891151579507055098),
  (-0.33998104358485626480, 0.33998104358485626480, 0.86113631159405257522, 0.14794033605678130087),
  (0.33998104358485626480, 0.33998104358485626480, 0.86113631159405257522, 0.14794033605678130087),
  (0.86113631159405257522, 0.33998104358485626480, 0.86113631159405257522, 0.07891151579507055098),
  (-0.86113631159405257522, 0.86113631159405257522, 0.86113631159405257522, 0.04209147749053145454),
  (-0.33998104358485626480, 0.86113631159405257522, 0.86113631159405257522, 0.07891151579507055098),
  (0.33998104358485626480, 0.86113631159405257522, 0.86113631159405257522, 0.07891151579507055098),
  (0.86113631159405257522, 0.86113631159405257522, 0.86113631159405257522, 0.04209147749053145454)]

end GaussTab

/-- `struct Gauss` — gauss.rs:48-70: the class and the selected table. -/
structure GaussTable where
  cls : GeoClass
  data : List GaussRow

open GaussTab in
/-- `Gauss::new` — gauss.rs:87-121. -/
def GaussTable.new (kind : GeoKind) : GaussTable :=
  { cls := kind.classOf,
    data := match kind with
      | .lin2 => ipLinLegendre2
      | .lin3 => ipLinLegendre3
      | .lin4 => ipLinLegendre4
      | .lin5 => ipLinLegendre5
      | .tri3 => ipTriInternal3
      | .tri6 => ipTriFelippa7
      | .tri10 => ipTriInternal12
      | .tri15 => ipTriInternal16
      | .qua4 => ipQuaLegendre4
      | .qua8 => ipQuaLegendre9
      | .qua9 => ipQuaLegendre9
      | .qua12 => ipQuaLegendre16
      | .qua16 => ipQuaLegendre16
      | .qua17 => ipQuaLegendre16
      | .tet4 => ipTetInternal4
      | .tet10 => ipTetFelippa14
      | .tet20 => ipTetFelippa24
      | .hex8 => ipHexLegendre8
      | .hex20 => ipHexLegendre27
      | .hex32 => ipHexLegendre64 }

open GaussTab in
/-- `Gauss::new_sized` — gauss.rs:189-246. -/
def GaussTable.newSized (cls : GeoClass) (ngauss : Nat) : Res GaussTable := do
  let data ← match cls, ngauss with
    | .lin, 1 => Res.ok ipLinLegendre1
    | .lin, 2 => Res.ok ipLinLegendre2
    | .lin, 3 => Res.ok ipLinLegendre3
    | .lin, 4 => Res.ok ipLinLegendre4
    | .lin, 5 => Res.ok ipLinLegendre5
    | .lin, _ => Res.err "requested number of integration points is not available for Lin class"
    | .tri, 1 => Res.ok ipTriInternal1
    | .tri, 3 => Res.ok ipTriInternal3
    | .tri, 4 => Res.ok ipTriInternal4
    | .tri, 6 => Res.ok ipTriFelippa6
    | .tri, 7 => Res.ok ipTriFelippa7
    | .tri, 12 => Res.ok ipTriInternal12
    | .tri, 16 => Res.ok ipTriInternal16
    | .tri, _ => Res.err "requested number of integration points is not available for Tri class"
    | .qua, 1 => Res.ok ipQuaLegendre1
    | .qua, 4 => Res.ok ipQuaLegendre4
    | .qua, 9 => Res.ok ipQuaLegendre9
    | .qua, 16 => Res.ok ipQuaLegendre16
    | .qua, _ => Res.err "requested number of integration points is not available for Qua class"
    | .tet, 1 => Res.ok ipTetInternal1
    | .tet, 4 => Res.ok ipTetInternal4
    | .tet, 5 => Res.ok ipTetInternal5
    | .tet, 8 => Res.ok ipTetFelippa8
    | .tet, 14 => Res.ok ipTetFelippa14
    | .tet, 15 => Res.ok ipTetFelippa15
    | .tet, 24 => Res.ok ipTetFelippa24
    | .tet, _ => Res.err "requested number of integration points is not available for Tet class"
    | .hex, 6 => Res.ok ipHexIrons6
    | .hex, 8 => Res.ok ipHexLegendre8
    | .hex, 14 => Res.ok ipHexIrons14
    | .hex, 27 => Res.ok ipHexLegendre27
    | .hex, 64 => Res.ok ipHexLegendre64
    | .hex, _ => Res.err "requested number of integration points is not available for Hex class"
  Res.ok { cls := cls, data := data }

/-- `Gauss::new_or_sized` — gauss.rs:254-259. -/
def GaussTable.newOrSized (kind : GeoKind) (ngauss : Option Nat) : Res GaussTable :=
  match ngauss with
  | some n => GaussTable.newSized kind.classOf n
  | none => Res.ok (GaussTable.new kind)

/-- `Gauss::npoint` — gauss.rs:263-265. -/
def GaussTable.npoint (g : GaussTable) : Nat := g.data.length

/-- Entry `i` of a row (`row[i]`); the rows have length 4. -/
def GaussRow.get (r : GaussRow) (i : Nat) : ℚ :=
  match i with
  | 0 => r.1
  | 1 => r.2.1
  | 2 => r.2.2.1
  | 3 => r.2.2.2
  | _ => 0

/-- The value passed to the integration routines (`Verif.Model.Integ`): point `p` is row `p` of the
table — gauss.rs:283-304. Simplification: rows out of range are zero rather than a panic; the
integration routines only read rows `p < npoint`. -/
noncomputable def GaussTable.toGauss (g : GaussTable) : Gauss :=
  { npoint := g.npoint,
    data := fun p i => ((GaussRow.get (g.data.getD p (0, 0, 0, 0)) i : ℚ) : ℝ) }

end Gemlab
