import Verif.Spec.Float
import Mathlib.Data.Rat.Defs

/-!
# Model of the named floating-point constants (`include/muu/impl/core_constants.h`, `include/muu/half.h`)

The literals, digit by digit.  Exponent ranges are not modelled: all values are well inside those of the types.
-/

namespace Verif.Model.Constants

open Verif.Spec.Float

/-- `T(literal)`: `core_constants.h` 176-292.  The literal is a `long double` with `l` significant bits, converted to a type
with `p`. -/
def stored (l p : ℕ) (q : ℚ) : ℚ := rnd p (rnd l q)

/-- Ratios of integers, and multiples and roots of `√2`, `√3`, `π` and the golden ratio of `floating_point_named_constants<T>`: `core_constants.h` 177-241, 260-280. -/
def numbers : List (String × ℚ) := [
  ("one_over_two", 0.500000000000000000000),
  ("one_over_three", 0.333333333333333333333),
  ("one_over_four", 0.250000000000000000000),
  ("one_over_five", 0.200000000000000000000),
  ("one_over_six", 0.166666666666666666667),
  ("one_over_seven", 0.142857142857142857143),
  ("one_over_eight", 0.125000000000000000000),
  ("sqrt_two", 1.414213562373095048802),
  ("one_over_sqrt_two", 0.707106781186547524401),
  ("two_over_three", 0.666666666666666666667),
  ("two_over_five", 0.400000000000000000000),
  ("two_over_seven", 0.285714285714285714286),
  ("sqrt_three", 1.732050807568877293527),
  ("one_over_sqrt_three", 0.577350269189625764509),
  ("three_over_two", 1.500000000000000000000),
  ("three_over_four", 0.750000000000000000000),
  ("three_over_five", 0.600000000000000000000),
  ("three_over_seven", 0.428571428571428571429),
  ("three_over_eight", 0.375000000000000000000),
  ("sqrt_four", 2.000000000000000000000),
  ("four_over_three", 1.333333333333333333333),
  ("four_over_five", 0.800000000000000000000),
  ("four_over_seven", 0.571428571428571428571),
  ("pi", 3.141592653589793238463),
  ("one_over_pi", 0.318309886183790671538),
  ("sqrt_pi", 1.772453850905516027298),
  ("one_over_sqrt_pi", 0.564189583547756286948),
  ("pi_over_two", 1.570796326794896619231),
  ("pi_over_three", 1.047197551196597746154),
  ("pi_over_four", 0.785398163397448309616),
  ("pi_over_five", 0.628318530717958647693),
  ("pi_over_six", 0.523598775598298873077),
  ("pi_over_seven", 0.448798950512827605495),
  ("pi_over_eight", 0.392699081698724154808),
  ("two_over_pi", 0.636619772367581343076),
  ("three_over_pi", 0.954929658551372014613),
  ("four_over_pi", 1.273239544735162686151),
  ("five_over_pi", 1.591549430918953357689),
  ("six_over_pi", 1.909859317102744029227),
  ("seven_over_pi", 2.228169203286534700764),
  ("eight_over_pi", 2.546479089470325372302),
  ("two_pi", 6.283185307179586476925),
  ("one_over_two_pi", 0.159154943091895335769),
  ("sqrt_two_pi", 2.506628274631000502416),
  ("one_over_sqrt_two_pi", 0.398942280401432677940),
  ("two_pi_over_three", 2.094395102393195492308),
  ("two_pi_over_five", 1.256637061435917295385),
  ("two_pi_over_seven", 0.897597901025655210989),
  ("three_over_two_pi", 0.477464829275686007307),
  ("five_over_two_pi", 0.795774715459476678844),
  ("seven_over_two_pi", 1.114084601643267350382),
  ("three_pi", 9.424777960769379715388),
  ("one_over_three_pi", 0.106103295394596890513),
  ("sqrt_three_pi", 3.069980123839465465439),
  ("one_over_sqrt_three_pi", 0.325735007935279947724),
  ("three_pi_over_two", 4.712388980384689857694),
  ("three_pi_over_four", 2.356194490192344928847),
  ("three_pi_over_five", 1.884955592153875943078),
  ("three_pi_over_seven", 1.346396851538482816484),
  ("three_pi_over_eight", 1.178097245096172464423),
  ("two_over_three_pi", 0.212206590789193781025),
  ("four_over_three_pi", 0.424413181578387562050),
  ("five_over_three_pi", 0.530516476972984452563),
  ("seven_over_three_pi", 0.742723067762178233588),
  ("eight_over_three_pi", 0.848826363156775124101),
  ("phi", 1.618033988749894848205),
  ("one_over_phi", 0.618033988749894848205),
  ("sqrt_phi", 1.272019649514068964252),
  ("one_over_sqrt_phi", 0.786151377757423286070),
  ("phi_over_two", 0.809016994374947424102),
  ("phi_over_three", 0.539344662916631616068),
  ("phi_over_four", 0.404508497187473712051),
  ("phi_over_five", 0.323606797749978969641),
  ("phi_over_six", 0.269672331458315808034),
  ("phi_over_seven", 0.231147712678556406886),
  ("phi_over_eight", 0.202254248593736856026),
  ("two_over_phi", 1.236067977499789696409),
  ("three_over_phi", 1.854101966249684544614),
  ("four_over_phi", 2.472135954999579392818),
  ("five_over_phi", 3.090169943749474241023),
  ("six_over_phi", 3.708203932499369089228),
  ("seven_over_phi", 4.326237921249263937432),
  ("eight_over_phi", 4.944271909999158785637),
  ("one_over_ten", 0.100000000000000000000),
  ("one_over_one_hundred", 0.010000000000000000000),
  ("one_over_one_thousand", 0.001000000000000000000)]

/-- Euler's number of `floating_point_named_constants<T>`: `core_constants.h` 242-259. -/
def exponentials : List (String × ℚ) := [
  ("e", 2.718281828459045534885),
  ("one_over_e", 0.367879441171442281059),
  ("sqrt_e", 1.648721270700128237684),
  ("one_over_sqrt_e", 0.606530659712633390187),
  ("e_over_two", 1.359140914229522767442),
  ("e_over_three", 0.906093942819681844962),
  ("e_over_four", 0.679570457114761383721),
  ("e_over_five", 0.543656365691809106977),
  ("e_over_six", 0.453046971409840922481),
  ("e_over_seven", 0.388325975494149362126),
  ("e_over_eight", 0.339785228557380691861),
  ("two_over_e", 0.735758882342884562119),
  ("three_over_e", 1.103638323514326843178),
  ("four_over_e", 1.471517764685769124237),
  ("five_over_e", 1.839397205857211405296),
  ("six_over_e", 2.207276647028653686356),
  ("seven_over_e", 2.575156088200095967415),
  ("eight_over_e", 2.943035529371538248474)]

/-- Conversions of `floating_point_named_constants<T>`: `core_constants.h` 288-288, 290-290. -/
def conversions : List (String × ℚ) := [
  ("degrees_to_radians", 0.017453292519943295769),
  ("radians_to_degrees", 57.295779513082320876798)]

/-- Ratios of integers, and multiples and roots of `√2`, `√3`, `π` and the golden ratio of `floating_point_named_constants<float128_t>`: `core_constants.h` 300-364, 383-403. -/
def quadNumbers : List (String × ℚ) := [
  ("one_over_two", 0.500000000000000000000000000000000000),
  ("one_over_three", 0.333333333333333333333333333333333333),
  ("one_over_four", 0.250000000000000000000000000000000000),
  ("one_over_five", 0.200000000000000000000000000000000000),
  ("one_over_six", 0.166666666666666666666666666666666667),
  ("one_over_seven", 0.142857142857142857142857142857142857),
  ("one_over_eight", 0.125000000000000000000000000000000000),
  ("sqrt_two", 1.414213562373095048801688724209698079),
  ("one_over_sqrt_two", 0.707106781186547524400844362104849039),
  ("two_over_three", 0.666666666666666666666666666666666667),
  ("two_over_five", 0.400000000000000000000000000000000000),
  ("two_over_seven", 0.285714285714285714285714285714285714),
  ("sqrt_three", 1.732050807568877293527446341505872367),
  ("one_over_sqrt_three", 0.577350269189625764509148780501957456),
  ("three_over_two", 1.500000000000000000000000000000000000),
  ("three_over_four", 0.750000000000000000000000000000000000),
  ("three_over_five", 0.600000000000000000000000000000000000),
  ("three_over_seven", 0.428571428571428571428571428571428571),
  ("three_over_eight", 0.375000000000000000000000000000000000),
  ("sqrt_four", 2.000000000000000000000000000000000000),
  ("four_over_three", 1.333333333333333333333333333333333333),
  ("four_over_five", 0.800000000000000000000000000000000000),
  ("four_over_seven", 0.571428571428571428571428571428571429),
  ("pi", 3.141592653589793238462643383279502884),
  ("one_over_pi", 0.318309886183790671537767526745028724),
  ("sqrt_pi", 1.772453850905516027298167483341145183),
  ("one_over_sqrt_pi", 0.564189583547756286948079451560772586),
  ("pi_over_two", 1.570796326794896619231321691639751442),
  ("pi_over_three", 1.047197551196597746154214461093167628),
  ("pi_over_four", 0.785398163397448309615660845819875721),
  ("pi_over_five", 0.628318530717958647692528676655900577),
  ("pi_over_six", 0.523598775598298873077107230546583814),
  ("pi_over_seven", 0.448798950512827605494663340468500412),
  ("pi_over_eight", 0.392699081698724154807830422909937861),
  ("two_over_pi", 0.636619772367581343075535053490057448),
  ("three_over_pi", 0.954929658551372014613302580235086172),
  ("four_over_pi", 1.273239544735162686151070106980114896),
  ("five_over_pi", 1.591549430918953357688837633725143620),
  ("six_over_pi", 1.909859317102744029226605160470172344),
  ("seven_over_pi", 2.228169203286534700764372687215201068),
  ("eight_over_pi", 2.546479089470325372302140213960229793),
  ("two_pi", 6.283185307179586476925286766559005768),
  ("one_over_two_pi", 0.159154943091895335768883763372514362),
  ("sqrt_two_pi", 2.506628274631000502415765284811045253),
  ("one_over_sqrt_two_pi", 0.398942280401432677939946059934381868),
  ("two_pi_over_three", 2.094395102393195492308428922186335256),
  ("two_pi_over_five", 1.256637061435917295385057353311801154),
  ("two_pi_over_seven", 0.897597901025655210989326680937000824),
  ("three_over_two_pi", 0.477464829275686007306651290117543086),
  ("five_over_two_pi", 0.795774715459476678844418816862571810),
  ("seven_over_two_pi", 1.114084601643267350382186343607600534),
  ("three_pi", 9.424777960769379715387930149838508653),
  ("one_over_three_pi", 0.106103295394596890512589175581676241),
  ("sqrt_three_pi", 3.069980123839465465438654874667794582),
  ("one_over_sqrt_three_pi", 0.325735007935279947724256415225564670),
  ("three_pi_over_two", 4.712388980384689857693965074919254326),
  ("three_pi_over_four", 2.356194490192344928846982537459627163),
  ("three_pi_over_five", 1.884955592153875943077586029967701731),
  ("three_pi_over_seven", 1.346396851538482816483990021405501236),
  ("three_pi_over_eight", 1.178097245096172464423491268729813582),
  ("two_over_three_pi", 0.212206590789193781025178351163352483),
  ("four_over_three_pi", 0.424413181578387562050356702326704965),
  ("five_over_three_pi", 0.530516476972984452562945877908381207),
  ("seven_over_three_pi", 0.742723067762178233588124229071733689),
  ("eight_over_three_pi", 0.848826363156775124100713404653409931),
  ("phi", 1.618033988749894848204586834365638118),
  ("one_over_phi", 0.618033988749894848204586834365638118),
  ("sqrt_phi", 1.272019649514068964252422461737491492),
  ("one_over_sqrt_phi", 0.786151377757423286069558585842958930),
  ("phi_over_two", 0.809016994374947424102293417182819059),
  ("phi_over_three", 0.539344662916631616068195611455212706),
  ("phi_over_four", 0.404508497187473712051146708591409529),
  ("phi_over_five", 0.323606797749978969640917366873127624),
  ("phi_over_six", 0.269672331458315808034097805727606353),
  ("phi_over_seven", 0.231147712678556406886369547766519731),
  ("phi_over_eight", 0.202254248593736856025573354295704765),
  ("two_over_phi", 1.236067977499789696409173668731276235),
  ("three_over_phi", 1.854101966249684544613760503096914353),
  ("four_over_phi", 2.472135954999579392818347337462552471),
  ("five_over_phi", 3.090169943749474241022934171828190589),
  ("six_over_phi", 3.708203932499369089227521006193828706),
  ("seven_over_phi", 4.326237921249263937432107840559466824),
  ("eight_over_phi", 4.944271909999158785636694674925104942),
  ("one_over_ten", 0.100000000000000000000000000000000000),
  ("one_over_one_hundred", 0.010000000000000000000000000000000000),
  ("one_over_one_thousand", 0.001000000000000000000000000000000000)]

/-- Euler's number of `floating_point_named_constants<float128_t>`: `core_constants.h` 365-382. -/
def quadExponentials : List (String × ℚ) := [
  ("e", 2.718281828459045534884808148490265012),
  ("one_over_e", 0.367879441171442281059287928010393142),
  ("sqrt_e", 1.648721270700128237684053351021451524),
  ("one_over_sqrt_e", 0.606530659712633390187322401455485737),
  ("e_over_two", 1.359140914229522767442404074245132506),
  ("e_over_three", 0.906093942819681844961602716163421671),
  ("e_over_four", 0.679570457114761383721202037122566253),
  ("e_over_five", 0.543656365691809106976961629698053002),
  ("e_over_six", 0.453046971409840922480801358081710835),
  ("e_over_seven", 0.388325975494149362126401164070037859),
  ("e_over_eight", 0.339785228557380691860601018561283126),
  ("two_over_e", 0.735758882342884562118575856020786284),
  ("three_over_e", 1.103638323514326843177863784031179427),
  ("four_over_e", 1.471517764685769124237151712041572569),
  ("five_over_e", 1.839397205857211405296439640051965711),
  ("six_over_e", 2.207276647028653686355727568062358853),
  ("seven_over_e", 2.575156088200095967415015496072751996),
  ("eight_over_e", 2.943035529371538248474303424083145138)]

/-- Conversions of `floating_point_named_constants<float128_t>`: `core_constants.h` 404-405. -/
def quadConversions : List (String × ℚ) := [
  ("degrees_to_radians", 0.017453292519943295769236907684886127),
  ("radians_to_degrees", 57.295779513082320876798154814105170332)]

/-- Ratios of integers, and multiples and roots of `√2`, `√3`, `π` and the golden ratio of `floating_point_named_constants<half>`, as bits, where `half` is emulated: `half.h` 801-865, 884-904. -/
def halfNumbers : List (String × ℕ) := [
  ("one_over_two", 0b0011100000000000),
  ("one_over_three", 0b0011010101010110),
  ("one_over_four", 0b0011010000000000),
  ("one_over_five", 0b0011001001100111),
  ("one_over_six", 0b0011000101010110),
  ("one_over_seven", 0b0011000010010011),
  ("one_over_eight", 0b0011000000000000),
  ("sqrt_two", 0b0011110110101000),
  ("one_over_sqrt_two", 0b0011100110101000),
  ("two_over_three", 0b0011100101010110),
  ("two_over_five", 0b0011011001100111),
  ("two_over_seven", 0b0011010010010011),
  ("sqrt_three", 0b0011111011101110),
  ("one_over_sqrt_three", 0b0011100010011111),
  ("three_over_two", 0b0011111000000000),
  ("three_over_four", 0b0011101000000000),
  ("three_over_five", 0b0011100011001101),
  ("three_over_seven", 0b0011011011011100),
  ("three_over_eight", 0b0011011000000000),
  ("sqrt_four", 0b0100000000000000),
  ("four_over_three", 0b0011110101010110),
  ("four_over_five", 0b0011101001100111),
  ("four_over_seven", 0b0011100010010011),
  ("pi", 0b0100001001001001),
  ("one_over_pi", 0b0011010100011000),
  ("sqrt_pi", 0b0011111100010111),
  ("one_over_sqrt_pi", 0b0011100010000100),
  ("pi_over_two", 0b0011111001001001),
  ("pi_over_three", 0b0011110000110001),
  ("pi_over_four", 0b0011101001001001),
  ("pi_over_five", 0b0011100100000111),
  ("pi_over_six", 0b0011100000110001),
  ("pi_over_seven", 0b0011011100101111),
  ("pi_over_eight", 0b0011011001001001),
  ("two_over_pi", 0b0011100100011000),
  ("three_over_pi", 0b0011101110100100),
  ("four_over_pi", 0b0011110100011000),
  ("five_over_pi", 0b0011111001011110),
  ("six_over_pi", 0b0011111110100100),
  ("seven_over_pi", 0b0100000001110101),
  ("eight_over_pi", 0b0100000100011000),
  ("two_pi", 0b0100011001001001),
  ("one_over_two_pi", 0b0011000100011000),
  ("sqrt_two_pi", 0b0100000100000100),
  ("one_over_sqrt_two_pi", 0b0011011001100010),
  ("two_pi_over_three", 0b0100000000110001),
  ("two_pi_over_five", 0b0011110100000111),
  ("two_pi_over_seven", 0b0011101100101111),
  ("three_over_two_pi", 0b0011011110100100),
  ("five_over_two_pi", 0b0011101001011110),
  ("seven_over_two_pi", 0b0011110001110101),
  ("three_pi", 0b0100100010110111),
  ("one_over_three_pi", 0b0010111011001011),
  ("sqrt_three_pi", 0b0100001000100100),
  ("one_over_sqrt_three_pi", 0b0011010100110110),
  ("three_pi_over_two", 0b0100010010110111),
  ("three_pi_over_four", 0b0100000010110111),
  ("three_pi_over_five", 0b0011111110001010),
  ("three_pi_over_seven", 0b0011110101100011),
  ("three_pi_over_eight", 0b0011110010110111),
  ("two_over_three_pi", 0b0011001011001011),
  ("four_over_three_pi", 0b0011011011001011),
  ("five_over_three_pi", 0b0011100000111111),
  ("seven_over_three_pi", 0b0011100111110001),
  ("eight_over_three_pi", 0b0011101011001011),
  ("phi", 0b0011111001111001),
  ("one_over_phi", 0b0011100011110010),
  ("sqrt_phi", 0b0011110100010111),
  ("one_over_sqrt_phi", 0b0011101001001010),
  ("phi_over_two", 0b0011101001111001),
  ("phi_over_three", 0b0011100001010001),
  ("phi_over_four", 0b0011011001111001),
  ("phi_over_five", 0b0011010100101110),
  ("phi_over_six", 0b0011010001010001),
  ("phi_over_seven", 0b0011001101100110),
  ("phi_over_eight", 0b0011001001111001),
  ("two_over_phi", 0b0011110011110010),
  ("three_over_phi", 0b0011111101101011),
  ("four_over_phi", 0b0100000011110010),
  ("five_over_phi", 0b0100001000101110),
  ("six_over_phi", 0b0100001101101011),
  ("seven_over_phi", 0b0100010001010100),
  ("eight_over_phi", 0b0100010011110010),
  ("one_over_ten", 0b0010111001100111),
  ("one_over_one_hundred", 0b0010000100011111),
  ("one_over_one_thousand", 0b0001010000011001)]

/-- Euler's number of `floating_point_named_constants<half>`, as bits, where `half` is emulated: `half.h` 866-883. -/
def halfExponentials : List (String × ℕ) := [
  ("e", 0b0100000101110000),
  ("one_over_e", 0b0011010111100011),
  ("sqrt_e", 0b0011111010011001),
  ("one_over_sqrt_e", 0b0011100011011010),
  ("e_over_two", 0b0011110101110000),
  ("e_over_three", 0b0011101101000000),
  ("e_over_four", 0b0011100101110000),
  ("e_over_five", 0b0011100001011010),
  ("e_over_six", 0b0011011101000000),
  ("e_over_seven", 0b0011011000110111),
  ("e_over_eight", 0b0011010101110000),
  ("two_over_e", 0b0011100111100011),
  ("three_over_e", 0b0011110001101010),
  ("four_over_e", 0b0011110111100011),
  ("five_over_e", 0b0011111101011100),
  ("six_over_e", 0b0100000001101010),
  ("seven_over_e", 0b0100000100100111),
  ("eight_over_e", 0b0100000111100011)]

/-- Conversions of `floating_point_named_constants<half>`, as bits, where `half` is emulated: `half.h` 905-906. -/
def halfConversions : List (String × ℕ) := [
  ("degrees_to_radians", 0b0010010001111000),
  ("radians_to_degrees", 0b0101001100101010)]

end Verif.Model.Constants
