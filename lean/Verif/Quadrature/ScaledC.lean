import Verif.Quadrature.Inside
set_option linter.all false
set_option maxRecDepth 100000
set_option maxHeartbeats 2000000

/-! # The rational tables as integers over a common denominator (generated from the tables) -/
namespace Verif.Quadrature
open RefGeometry

def Tn3_1_1Z : List (Int × List Int) := [
  (16666666666666663, [1, 1, 1])]

theorem Tn3_1_1_scaled : scaled 100000000000000000 4 Tn3_1_1T Tn3_1_1Z = true := by decide +kernel

theorem Tn3_1_1_inside : PointsInside tetrahedronG Tn3_1_1 :=
  inside_of_test (simplex_test tetrahedron_body) (by norm_num) 1 1 Tn3_1_1_scaled (by decide +kernel)

theorem Tn3_1_1_check : check tetrahedronM 100000000000000000 4 10000000000000 3 1 Tn3_1_1Z = true := by decide +kernel

theorem Tn3_1_1_integrates : Integrates tetrahedronG Tn3_1_1 1 (1 / (10000000000000 : ℕ)) :=
  integrates_of_check tetrahedron_compact tetrahedron_moments (by norm_num) (by norm_num) (by norm_num) 1 1 1
    (by decide) Tn3_1_1_scaled Tn3_1_1_check

def Tn3_2_4Z : List (Int × List Int) := [
  (41666666666666623, [3454915028125262, 3454915028125262, 3454915028125262]),
  (41666666666666623, [14635254915624213, 3454915028125262, 3454915028125262]),
  (41666666666666623, [3454915028125262, 14635254915624213, 3454915028125262]),
  (41666666666666623, [3454915028125262, 3454915028125262, 14635254915624213])]

theorem Tn3_2_4_scaled : scaled 1000000000000000000 25000000000000000 Tn3_2_4T Tn3_2_4Z = true := by decide +kernel

theorem Tn3_2_4_inside : PointsInside tetrahedronG Tn3_2_4 :=
  inside_of_test (simplex_test tetrahedron_body) (by norm_num) 2 4 Tn3_2_4_scaled (by decide +kernel)

theorem Tn3_2_4_check : check tetrahedronM 1000000000000000000 25000000000000000 10000000000000 3 2 Tn3_2_4Z = true := by decide +kernel

theorem Tn3_2_4_integrates : Integrates tetrahedronG Tn3_2_4 2 (1 / (10000000000000 : ℕ)) :=
  integrates_of_check tetrahedron_compact tetrahedron_moments (by norm_num) (by norm_num) (by norm_num) 2 4 2
    (by decide) Tn3_2_4_scaled Tn3_2_4_check

def Tn3_3_10Z : List (Int × List Int) := [
  (36294178313400892015280771051802, [1421076460492111, 359641179835963, 359641179835963]),
  (36294178313400892015280771051802, [359641179835963, 359641179835963, 359641179835963]),
  (36294178313400892015280771051802, [359641179835963, 359641179835963, 1421076460492111]),
  (36294178313400892015280771051802, [359641179835963, 1421076460492111, 359641179835963]),
  (3581658902177182545368374854353, [0, 1250000000000000, 1250000000000000]),
  (3581658902177182545368374854353, [1250000000000000, 0, 1250000000000000]),
  (3581658902177182545368374854353, [1250000000000000, 1250000000000000, 0]),
  (3581658902177182545368374854353, [1250000000000000, 0, 0]),
  (3581658902177182545368374854353, [0, 1250000000000000, 0]),
  (3581658902177182545368374854353, [0, 0, 1250000000000000])]

theorem Tn3_3_10_scaled : scaled 1000000000000000000000000000000000 2500000000000000 Tn3_3_10T Tn3_3_10Z = true := by decide +kernel

theorem Tn3_3_10_inside : PointsInside tetrahedronG Tn3_3_10 :=
  inside_of_test (simplex_test tetrahedron_body) (by norm_num) 3 10 Tn3_3_10_scaled (by decide +kernel)

theorem Tn3_3_10_check : check tetrahedronM 1000000000000000000000000000000000 2500000000000000 10000000000000 3 3 Tn3_3_10Z = true := by decide +kernel

theorem Tn3_3_10_integrates : Integrates tetrahedronG Tn3_3_10 3 (1 / (10000000000000 : ℕ)) :=
  integrates_of_check tetrahedron_compact tetrahedron_moments (by norm_num) (by norm_num) (by norm_num) 3 10 3
    (by decide) Tn3_3_10_scaled Tn3_3_10_check

def Tn3_4_14Z : List (Int × List Int) := [
  (3174603174603165968253968253970, [0, 5000000000000000, 5000000000000000]),
  (3174603174603165968253968253970, [5000000000000000, 0, 5000000000000000]),
  (3174603174603165968253968253970, [5000000000000000, 5000000000000000, 0]),
  (3174603174603165968253968253970, [5000000000000000, 0, 0]),
  (3174603174603165968253968253970, [0, 5000000000000000, 0]),
  (3174603174603165968253968253970, [0, 0, 5000000000000000]),
  (14764970790496780085039759424041, [6984197043243866, 1005267652252045, 1005267652252045]),
  (14764970790496780085039759424041, [1005267652252045, 1005267652252045, 1005267652252045]),
  (14764970790496780085039759424041, [1005267652252045, 1005267652252045, 6984197043243866]),
  (14764970790496780085039759424041, [1005267652252045, 6984197043243866, 1005267652252045]),
  (22139791114265111795912621528341, [568813795204234, 3143728734931922, 3143728734931922]),
  (22139791114265111795912621528341, [3143728734931922, 3143728734931922, 3143728734931922]),
  (22139791114265111795912621528341, [3143728734931922, 3143728734931922, 568813795204234]),
  (22139791114265111795912621528341, [3143728734931922, 568813795204234, 3143728734931922])]

theorem Tn3_4_14_scaled : scaled 1000000000000000000000000000000000 10000000000000000 Tn3_4_14T Tn3_4_14Z = true := by decide +kernel

theorem Tn3_4_14_inside : PointsInside tetrahedronG Tn3_4_14 :=
  inside_of_test (simplex_test tetrahedron_body) (by norm_num) 4 14 Tn3_4_14_scaled (by decide +kernel)

theorem Tn3_4_14_check : check tetrahedronM 1000000000000000000000000000000000 10000000000000000 10000000000000 3 4 Tn3_4_14Z = true := by decide +kernel

theorem Tn3_4_14_integrates : Integrates tetrahedronG Tn3_4_14 4 (1 / (10000000000000 : ℕ)) :=
  integrates_of_check tetrahedron_compact tetrahedron_moments (by norm_num) (by norm_num) (by norm_num) 4 14 4
    (by decide) Tn3_4_14_scaled Tn3_4_14_check

def T3_5_14Z : List (Int × List Int) := [
  (61244202596968130, [92735250310891026, 92735250310891026, 92735250310891026]),
  (61244202596968130, [721794249067326480, 92735250310891026, 92735250310891026]),
  (61244202596968130, [92735250310891026, 721794249067326480, 92735250310891026]),
  (61244202596968130, [92735250310891026, 92735250310891026, 721794249067326480]),
  (93906604765013125, [310885919263300500, 310885919263300500, 310885919263300500]),
  (93906604765013125, [67342242210097991, 310885919263300500, 310885919263300500]),
  (93906604765013125, [310885919263300500, 67342242210097991, 310885919263300500]),
  (93906604765013125, [310885919263300500, 310885919263300500, 67342242210097991]),
  (35455017314234374, [454496295874350480, 454496295874350480, 45503704125649524]),
  (35455017314234374, [454496295874350480, 45503704125649524, 454496295874350480]),
  (35455017314234374, [45503704125649524, 454496295874350480, 454496295874350480]),
  (35455017314234374, [454496295874350480, 45503704125649524, 45503704125649524]),
  (35455017314234374, [45503704125649524, 454496295874350480, 45503704125649524]),
  (35455017314234374, [45503704125649524, 45503704125649524, 454496295874350480])]

theorem T3_5_14_scaled : scaled 5000000000000000000 1000000000000000000 T3_5_14T T3_5_14Z = true := by decide +kernel

theorem T3_5_14_inside : PointsInside tetrahedronG T3_5_14 :=
  inside_of_test (simplex_test tetrahedron_body) (by norm_num) 5 14 T3_5_14_scaled (by decide +kernel)

theorem T3_5_14_check : check tetrahedronM 5000000000000000000 1000000000000000000 10000000000000 3 5 T3_5_14Z = true := by decide +kernel

theorem T3_5_14_integrates : Integrates tetrahedronG T3_5_14 5 (1 / (10000000000000 : ℕ)) :=
  integrates_of_check tetrahedron_compact tetrahedron_moments (by norm_num) (by norm_num) (by norm_num) 5 14 5
    (by decide) T3_5_14_scaled T3_5_14_check

def T3_6_24Z : List (Int × List Int) := [
  (66537917096946252, [107301435629576005, 107301435629576005, 107301435629576005]),
  (66537917096946252, [178095693111271990, 107301435629576005, 107301435629576005]),
  (66537917096946252, [107301435629576005, 178095693111271990, 107301435629576005]),
  (66537917096946252, [107301435629576005, 107301435629576005, 178095693111271990]),
  (16795351758867501, [20336979267305738, 20336979267305738, 20336979267305738]),
  (16795351758867501, [438989062198082980, 20336979267305738, 20336979267305738]),
  (16795351758867501, [20336979267305738, 438989062198082980, 20336979267305738]),
  (16795351758867501, [20336979267305738, 20336979267305738, 438989062198082980]),
  (92261969239424996, [161168945071137770, 161168945071137770, 161168945071137770]),
  (92261969239424996, [16493164786586745, 161168945071137770, 161168945071137770]),
  (92261969239424996, [161168945071137770, 16493164786586745, 161168945071137770]),
  (92261969239424996, [161168945071137770, 161168945071137770, 16493164786586745]),
  (80357142857142502, [31830500937508749, 31830500937508749, 134836165729158020]),
  (80357142857142502, [31830500937508749, 134836165729158020, 31830500937508749]),
  (80357142857142502, [31830500937508749, 31830500937508749, 301502832395824485]),
  (80357142857142502, [31830500937508749, 301502832395824485, 31830500937508749]),
  (80357142857142502, [31830500937508749, 134836165729158020, 301502832395824485]),
  (80357142857142502, [31830500937508749, 301502832395824485, 134836165729158020]),
  (80357142857142502, [134836165729158020, 31830500937508749, 31830500937508749]),
  (80357142857142502, [134836165729158020, 31830500937508749, 301502832395824485]),
  (80357142857142502, [134836165729158020, 301502832395824485, 31830500937508749]),
  (80357142857142502, [301502832395824485, 31830500937508749, 134836165729158020]),
  (80357142857142502, [301502832395824485, 31830500937508749, 31830500937508749]),
  (80357142857142502, [301502832395824485, 134836165729158020, 31830500937508749])]

theorem T3_6_24_scaled : scaled 10000000000000000000 500000000000000000 T3_6_24T T3_6_24Z = true := by decide +kernel

theorem T3_6_24_inside : PointsInside tetrahedronG T3_6_24 :=
  inside_of_test (simplex_test tetrahedron_body) (by norm_num) 6 24 T3_6_24_scaled (by decide +kernel)

theorem T3_6_24_check : check tetrahedronM 10000000000000000000 500000000000000000 10000000000000 3 6 T3_6_24Z = true := by decide +kernel

theorem T3_6_24_integrates : Integrates tetrahedronG T3_6_24 6 (1 / (10000000000000 : ℕ)) :=
  integrates_of_check tetrahedron_compact tetrahedron_moments (by norm_num) (by norm_num) (by norm_num) 6 24 6
    (by decide) T3_6_24_scaled T3_6_24_check

def T3_7_31Z : List (Int × List Int) := [
  (365007732756466586364965460244, [267367755543735, 267367755543735, 267367755543735]),
  (365007732756466586364965460244, [9197896733368800, 267367755543735, 267367755543735]),
  (365007732756466586364965460244, [267367755543735, 9197896733368800, 267367755543735]),
  (365007732756466586364965460244, [267367755543735, 267367755543735, 9197896733368800]),
  (2389927836294416140882542681895, [7477598884818090, 391022406356488, 391022406356488]),
  (2389927836294416140882542681895, [1740356302468940, 391022406356488, 391022406356488]),
  (2389927836294416140882542681895, [391022406356488, 7477598884818090, 391022406356488]),
  (2389927836294416140882542681895, [391022406356488, 1740356302468940, 391022406356488]),
  (2389927836294416140882542681895, [391022406356488, 391022406356488, 7477598884818090]),
  (2389927836294416140882542681895, [391022406356488, 391022406356488, 1740356302468940]),
  (2389927836294416140882542681895, [1740356302468940, 7477598884818090, 391022406356488]),
  (2389927836294416140882542681895, [7477598884818090, 1740356302468940, 391022406356488]),
  (2389927836294416140882542681895, [1740356302468940, 391022406356488, 7477598884818090]),
  (2389927836294416140882542681895, [7477598884818090, 391022406356488, 1740356302468940]),
  (2389927836294416140882542681895, [391022406356488, 1740356302468940, 7477598884818090]),
  (2389927836294416140882542681895, [391022406356488, 7477598884818090, 1740356302468940]),
  (4171756594779099082213549148598, [4547545999844830, 452454000155172, 452454000155172]),
  (4171756594779099082213549148598, [452454000155172, 4547545999844830, 452454000155172]),
  (4171756594779099082213549148598, [452454000155172, 452454000155172, 4547545999844830]),
  (4171756594779099082213549148598, [4547545999844830, 4547545999844830, 452454000155172]),
  (4171756594779099082213549148598, [4547545999844830, 452454000155172, 4547545999844830]),
  (4171756594779099082213549148598, [452454000155172, 4547545999844830, 4547545999844830]),
  (7997322217625898240589112122302, [2232010379623150, 2232010379623150, 504792790607720]),
  (7997322217625898240589112122302, [5031186450145980, 2232010379623150, 504792790607720]),
  (7997322217625898240589112122302, [2232010379623150, 5031186450145980, 504792790607720]),
  (7997322217625898240589112122302, [2232010379623150, 504792790607720, 2232010379623150]),
  (7997322217625898240589112122302, [5031186450145980, 504792790607720, 2232010379623150]),
  (7997322217625898240589112122302, [2232010379623150, 504792790607720, 5031186450145980]),
  (7997322217625898240589112122302, [504792790607720, 2232010379623150, 2232010379623150]),
  (7997322217625898240589112122302, [504792790607720, 5031186450145980, 2232010379623150]),
  (7997322217625898240589112122302, [504792790607720, 2232010379623150, 5031186450145980]),
  (7997322217625898240589112122302, [5031186450145980, 2232010379623150, 2232010379623150]),
  (7997322217625898240589112122302, [2232010379623150, 5031186450145980, 2232010379623150]),
  (7997322217625898240589112122302, [2232010379623150, 2232010379623150, 5031186450145980]),
  (15529095519922329916932318950420, [2500000000000000, 2500000000000000, 2500000000000000])]

theorem T3_7_31_scaled : scaled 1000000000000000000000000000000000 10000000000000000 T3_7_31T T3_7_31Z = true := by decide +kernel

theorem T3_7_31_inside : PointsInside tetrahedronG T3_7_31 :=
  inside_of_test (simplex_test tetrahedron_body) (by norm_num) 7 35 T3_7_31_scaled (by decide +kernel)

theorem T3_7_31_check : check tetrahedronM 1000000000000000000000000000000000 10000000000000000 10000000000000 3 6 T3_7_31Z = true := by decide +kernel

theorem T3_7_31_integrates : Integrates tetrahedronG T3_7_31 6 (1 / (10000000000000 : ℕ)) :=
  integrates_of_check tetrahedron_compact tetrahedron_moments (by norm_num) (by norm_num) (by norm_num) 7 35 6
    (by decide) T3_7_31_scaled T3_7_31_check

def T3_8_43Z : List (Int × List Int) := [
  (-2050018865863987400, [2500000000000000000, 2500000000000000000, 2500000000000000000]),
  (1425030582286687500, [2068299316106729800, 2068299316106729800, 2068299316106729800]),
  (1425030582286687500, [2068299316106729800, 2068299316106729800, 3795102051679805100]),
  (1425030582286687500, [2068299316106729800, 3795102051679805100, 2068299316106729800]),
  (1425030582286687500, [3795102051679805100, 2068299316106729800, 2068299316106729800]),
  (196703331313387510, [821035883105464830, 821035883105464830, 821035883105464830]),
  (196703331313387510, [821035883105464830, 821035883105464830, 7536892350683599400]),
  (196703331313387510, [821035883105464830, 7536892350683599400, 821035883105464830]),
  (196703331313387510, [7536892350683599400, 821035883105464830, 821035883105464830]),
  (16983410909287501, [57819505051979747, 57819505051979747, 57819505051979747]),
  (16983410909287501, [57819505051979747, 57819505051979747, 9826541484844060200]),
  (16983410909287501, [57819505051979747, 9826541484844060200, 57819505051979747]),
  (16983410909287501, [9826541484844060200, 57819505051979747, 57819505051979747]),
  (457968382446724990, [505327400188940180, 505327400188940180, 4494672599811059800]),
  (457968382446724990, [505327400188940180, 4494672599811059800, 505327400188940180]),
  (457968382446724990, [4494672599811059800, 505327400188940180, 505327400188940180]),
  (457968382446724990, [505327400188940180, 4494672599811059800, 4494672599811059800]),
  (457968382446724990, [4494672599811059800, 505327400188940180, 4494672599811059800]),
  (457968382446724990, [4494672599811059800, 4494672599811059800, 505327400188940180]),
  (570448580868187540, [2290665361168109900, 2290665361168109900, 356395827885340190]),
  (570448580868187540, [2290665361168109900, 356395827885340190, 2290665361168109900]),
  (570448580868187540, [2290665361168109900, 2290665361168109900, 5062273449778435000]),
  (570448580868187540, [2290665361168109900, 5062273449778435000, 2290665361168109900]),
  (570448580868187540, [2290665361168109900, 356395827885340190, 5062273449778435000]),
  (570448580868187540, [2290665361168109900, 5062273449778435000, 356395827885340190]),
  (570448580868187540, [356395827885340190, 2290665361168109900, 2290665361168109900]),
  (570448580868187540, [356395827885340190, 2290665361168109900, 5062273449778435000]),
  (570448580868187540, [356395827885340190, 5062273449778435000, 2290665361168109900]),
  (570448580868187540, [5062273449778435000, 2290665361168109900, 356395827885340190]),
  (570448580868187540, [5062273449778435000, 2290665361168109900, 2290665361168109900]),
  (570448580868187540, [5062273449778435000, 356395827885340190, 2290665361168109900]),
  (214051914116212500, [366077495531975110, 366077495531975110, 1904860419346334800]),
  (214051914116212500, [366077495531975110, 1904860419346334800, 366077495531975110]),
  (214051914116212500, [366077495531975110, 366077495531975110, 7362984589589715000]),
  (214051914116212500, [366077495531975110, 7362984589589715000, 366077495531975110]),
  (214051914116212500, [366077495531975110, 1904860419346334800, 7362984589589715000]),
  (214051914116212500, [366077495531975110, 7362984589589715000, 1904860419346334800]),
  (214051914116212500, [1904860419346334800, 366077495531975110, 366077495531975110]),
  (214051914116212500, [1904860419346334800, 366077495531975110, 7362984589589715000]),
  (214051914116212500, [1904860419346334800, 7362984589589715000, 366077495531975110]),
  (214051914116212500, [7362984589589715000, 366077495531975110, 1904860419346334800]),
  (214051914116212500, [7362984589589715000, 366077495531975110, 366077495531975110]),
  (214051914116212500, [7362984589589715000, 1904860419346334800, 366077495531975110])]

theorem T3_8_43_scaled : scaled 100000000000000000000 10000000000000000000 T3_8_43T T3_8_43Z = true := by decide +kernel

theorem T3_8_43_inside : PointsInside tetrahedronG T3_8_43 :=
  inside_of_test (simplex_test tetrahedron_body) (by norm_num) 8 43 T3_8_43_scaled (by decide +kernel)

theorem T3_8_43_check : check tetrahedronM 100000000000000000000 10000000000000000000 10000000000000 3 8 T3_8_43Z = true := by decide +kernel

theorem T3_8_43_integrates : Integrates tetrahedronG T3_8_43 8 (1 / (10000000000000 : ℕ)) :=
  integrates_of_check tetrahedron_compact tetrahedron_moments (by norm_num) (by norm_num) (by norm_num) 8 43 8
    (by decide) T3_8_43_scaled T3_8_43_check

def T3_9_53Z : List (Int × List Int) := [
  (86442602801166647649294050410, [149520651530592, 149520651530592, 149520651530592]),
  (86442602801166647649294050410, [9551438045408220, 149520651530592, 149520651530592]),
  (86442602801166647649294050410, [149520651530592, 9551438045408220, 149520651530592]),
  (86442602801166647649294050410, [149520651530592, 149520651530592, 9551438045408220]),
  (800138711662333157302816767620, [1518319491659370, 340960211962615, 340960211962615]),
  (800138711662333157302816767620, [7799760084415400, 340960211962615, 340960211962615]),
  (800138711662333157302816767620, [340960211962615, 1518319491659370, 340960211962615]),
  (800138711662333157302816767620, [340960211962615, 7799760084415400, 340960211962615]),
  (800138711662333157302816767620, [340960211962615, 340960211962615, 1518319491659370]),
  (800138711662333157302816767620, [340960211962615, 340960211962615, 7799760084415400]),
  (800138711662333157302816767620, [7799760084415400, 1518319491659370, 340960211962615]),
  (800138711662333157302816767620, [1518319491659370, 7799760084415400, 340960211962615]),
  (800138711662333157302816767620, [7799760084415400, 340960211962615, 1518319491659370]),
  (800138711662333157302816767620, [1518319491659370, 340960211962615, 7799760084415400]),
  (800138711662333157302816767620, [340960211962615, 7799760084415400, 1518319491659370]),
  (800138711662333157302816767620, [340960211962615, 1518319491659370, 7799760084415400]),
  (1370783139985266365094375869908, [5526556431060170, 462051504150017, 462051504150017]),
  (1370783139985266365094375869908, [3549340560639790, 462051504150017, 462051504150017]),
  (1370783139985266365094375869908, [462051504150017, 5526556431060170, 462051504150017]),
  (1370783139985266365094375869908, [462051504150017, 3549340560639790, 462051504150017]),
  (1370783139985266365094375869908, [462051504150017, 462051504150017, 5526556431060170]),
  (1370783139985266365094375869908, [462051504150017, 462051504150017, 3549340560639790]),
  (1370783139985266365094375869908, [3549340560639790, 5526556431060170, 462051504150017]),
  (1370783139985266365094375869908, [5526556431060170, 3549340560639790, 462051504150017]),
  (1370783139985266365094375869908, [3549340560639790, 462051504150017, 5526556431060170]),
  (1370783139985266365094375869908, [5526556431060170, 462051504150017, 3549340560639790]),
  (1370783139985266365094375869908, [462051504150017, 3549340560639790, 5526556431060170]),
  (1370783139985266365094375869908, [462051504150017, 5526556431060170, 3549340560639790]),
  (1281231387610916384795761392265, [2281904610687610, 2281904610687610, 55147549744775]),
  (1281231387610916384795761392265, [5381043228880020, 2281904610687610, 55147549744775]),
  (1281231387610916384795761392265, [2281904610687610, 5381043228880020, 55147549744775]),
  (1281231387610916384795761392265, [2281904610687610, 55147549744775, 2281904610687610]),
  (1281231387610916384795761392265, [5381043228880020, 55147549744775, 2281904610687610]),
  (1281231387610916384795761392265, [2281904610687610, 55147549744775, 5381043228880020]),
  (1281231387610916384795761392265, [55147549744775, 2281904610687610, 2281904610687610]),
  (1281231387610916384795761392265, [55147549744775, 5381043228880020, 2281904610687610]),
  (1281231387610916384795761392265, [55147549744775, 2281904610687610, 5381043228880020]),
  (1281231387610916384795761392265, [5381043228880020, 2281904610687610, 2281904610687610]),
  (1281231387610916384795761392265, [2281904610687610, 5381043228880020, 2281904610687610]),
  (1281231387610916384795761392265, [2281904610687610, 2281904610687610, 5381043228880020]),
  (2446000986460249461879782978745, [3523052600879940, 3523052600879940, 992057202494530]),
  (2446000986460249461879782978745, [1961837595745600, 3523052600879940, 992057202494530]),
  (2446000986460249461879782978745, [3523052600879940, 1961837595745600, 992057202494530]),
  (2446000986460249461879782978745, [3523052600879940, 992057202494530, 3523052600879940]),
  (2446000986460249461879782978745, [1961837595745600, 992057202494530, 3523052600879940]),
  (2446000986460249461879782978745, [3523052600879940, 992057202494530, 1961837595745600]),
  (2446000986460249461879782978745, [992057202494530, 3523052600879940, 3523052600879940]),
  (2446000986460249461879782978745, [992057202494530, 1961837595745600, 3523052600879940]),
  (2446000986460249461879782978745, [992057202494530, 3523052600879940, 1961837595745600]),
  (2446000986460249461879782978745, [1961837595745600, 3523052600879940, 3523052600879940]),
  (2446000986460249461879782978745, [3523052600879940, 1961837595745600, 3523052600879940]),
  (2446000986460249461879782978745, [3523052600879940, 3523052600879940, 1961837595745600]),
  (3052428053375899328465828257302, [1344783347929940, 1344783347929940, 1344783347929940]),
  (3052428053375899328465828257302, [5965649956210170, 1344783347929940, 1344783347929940]),
  (3052428053375899328465828257302, [1344783347929940, 5965649956210170, 1344783347929940]),
  (3052428053375899328465828257302, [1344783347929940, 1344783347929940, 5965649956210170])]

theorem T3_9_53_scaled : scaled 500000000000000000000000000000000 10000000000000000 T3_9_53T T3_9_53Z = true := by decide +kernel

theorem T3_9_53_inside : PointsInside tetrahedronG T3_9_53 :=
  inside_of_test (simplex_test tetrahedron_body) (by norm_num) 9 56 T3_9_53_scaled (by decide +kernel)

theorem T3_9_53_check : check tetrahedronM 500000000000000000000000000000000 10000000000000000 10000000000000 3 8 T3_9_53Z = true := by decide +kernel

theorem T3_9_53_integrates : Integrates tetrahedronG T3_9_53 8 (1 / (10000000000000 : ℕ)) :=
  integrates_of_check tetrahedron_compact tetrahedron_moments (by norm_num) (by norm_num) (by norm_num) 9 56 8
    (by decide) T3_9_53_scaled T3_9_53_check

def T3_10_126Z : List (Int × List Int) := [
  (11340706016270249750, [71428571428571508, 71428571428571508, 785714285714285480]),
  (11340706016270249750, [71428571428571508, 214285714285714520, 642857142857143020]),
  (11340706016270249750, [71428571428571508, 357142857142856980, 500000000000000000]),
  (11340706016270249750, [71428571428571508, 500000000000000000, 357142857142856980]),
  (11340706016270249750, [71428571428571508, 642857142857143020, 214285714285714520]),
  (11340706016270249750, [71428571428571508, 785714285714285480, 71428571428571508]),
  (11340706016270249750, [214285714285714520, 71428571428571508, 642857142857143020]),
  (11340706016270249750, [214285714285714520, 214285714285714520, 500000000000000000]),
  (11340706016270249750, [214285714285714520, 357142857142856980, 357142857142856980]),
  (11340706016270249750, [214285714285714520, 500000000000000000, 214285714285714520]),
  (11340706016270249750, [214285714285714520, 642857142857143020, 71428571428571508]),
  (11340706016270249750, [357142857142856980, 71428571428571508, 500000000000000000]),
  (11340706016270249750, [357142857142856980, 214285714285714520, 357142857142856980]),
  (11340706016270249750, [357142857142856980, 357142857142856980, 214285714285714520]),
  (11340706016270249750, [357142857142856980, 500000000000000000, 71428571428571508]),
  (11340706016270249750, [500000000000000000, 71428571428571508, 357142857142856980]),
  (11340706016270249750, [500000000000000000, 214285714285714520, 214285714285714520]),
  (11340706016270249750, [500000000000000000, 357142857142856980, 71428571428571508]),
  (11340706016270249750, [642857142857143020, 71428571428571508, 214285714285714520]),
  (11340706016270249750, [642857142857143020, 214285714285714520, 71428571428571508]),
  (11340706016270249750, [785714285714285480, 71428571428571508, 71428571428571508]),
  (11340706016270249750, [71428571428571508, 71428571428571508, 642857142857143020]),
  (11340706016270249750, [71428571428571508, 214285714285714520, 500000000000000000]),
  (11340706016270249750, [71428571428571508, 357142857142856980, 357142857142856980]),
  (11340706016270249750, [71428571428571508, 500000000000000000, 214285714285714520]),
  (11340706016270249750, [71428571428571508, 642857142857143020, 71428571428571508]),
  (11340706016270249750, [214285714285714520, 71428571428571508, 500000000000000000]),
  (11340706016270249750, [214285714285714520, 214285714285714520, 357142857142856980]),
  (11340706016270249750, [214285714285714520, 357142857142856980, 214285714285714520]),
  (11340706016270249750, [214285714285714520, 500000000000000000, 71428571428571508]),
  (11340706016270249750, [357142857142856980, 71428571428571508, 357142857142856980]),
  (11340706016270249750, [357142857142856980, 214285714285714520, 214285714285714520]),
  (11340706016270249750, [357142857142856980, 357142857142856980, 71428571428571508]),
  (11340706016270249750, [500000000000000000, 71428571428571508, 214285714285714520]),
  (11340706016270249750, [500000000000000000, 214285714285714520, 71428571428571508]),
  (11340706016270249750, [642857142857143020, 71428571428571508, 71428571428571508]),
  (11340706016270249750, [71428571428571508, 71428571428571508, 500000000000000000]),
  (11340706016270249750, [71428571428571508, 214285714285714520, 357142857142856980]),
  (11340706016270249750, [71428571428571508, 357142857142856980, 214285714285714520]),
  (11340706016270249750, [71428571428571508, 500000000000000000, 71428571428571508]),
  (11340706016270249750, [214285714285714520, 71428571428571508, 357142857142856980]),
  (11340706016270249750, [214285714285714520, 214285714285714520, 214285714285714520]),
  (11340706016270249750, [214285714285714520, 357142857142856980, 71428571428571508]),
  (11340706016270249750, [357142857142856980, 71428571428571508, 214285714285714520]),
  (11340706016270249750, [357142857142856980, 214285714285714520, 71428571428571508]),
  (11340706016270249750, [500000000000000000, 71428571428571508, 71428571428571508]),
  (11340706016270249750, [71428571428571508, 71428571428571508, 357142857142856980]),
  (11340706016270249750, [71428571428571508, 214285714285714520, 214285714285714520]),
  (11340706016270249750, [71428571428571508, 357142857142856980, 71428571428571508]),
  (11340706016270249750, [214285714285714520, 71428571428571508, 214285714285714520]),
  (11340706016270249750, [214285714285714520, 214285714285714520, 71428571428571508]),
  (11340706016270249750, [357142857142856980, 71428571428571508, 71428571428571508]),
  (11340706016270249750, [71428571428571508, 71428571428571508, 214285714285714520]),
  (11340706016270249750, [71428571428571508, 214285714285714520, 71428571428571508]),
  (11340706016270249750, [214285714285714520, 71428571428571508, 71428571428571508]),
  (11340706016270249750, [71428571428571508, 71428571428571508, 71428571428571508]),
  (-29130869130869125000, [83333333333333481, 83333333333333481, 750000000000000000]),
  (-29130869130869125000, [83333333333333481, 250000000000000000, 583333333333333480]),
  (-29130869130869125000, [83333333333333481, 416666666666666520, 416666666666666520]),
  (-29130869130869125000, [83333333333333481, 583333333333333480, 250000000000000000]),
  (-29130869130869125000, [83333333333333481, 750000000000000000, 83333333333333481]),
  (-29130869130869125000, [250000000000000000, 83333333333333481, 583333333333333480]),
  (-29130869130869125000, [250000000000000000, 250000000000000000, 416666666666666520]),
  (-29130869130869125000, [250000000000000000, 416666666666666520, 250000000000000000]),
  (-29130869130869125000, [250000000000000000, 583333333333333480, 83333333333333481]),
  (-29130869130869125000, [416666666666666520, 83333333333333481, 416666666666666520]),
  (-29130869130869125000, [416666666666666520, 250000000000000000, 250000000000000000]),
  (-29130869130869125000, [416666666666666520, 416666666666666520, 83333333333333481]),
  (-29130869130869125000, [583333333333333480, 83333333333333481, 250000000000000000]),
  (-29130869130869125000, [583333333333333480, 250000000000000000, 83333333333333481]),
  (-29130869130869125000, [750000000000000000, 83333333333333481, 83333333333333481]),
  (-29130869130869125000, [83333333333333481, 83333333333333481, 583333333333333480]),
  (-29130869130869125000, [83333333333333481, 250000000000000000, 416666666666666520]),
  (-29130869130869125000, [83333333333333481, 416666666666666520, 250000000000000000]),
  (-29130869130869125000, [83333333333333481, 583333333333333480, 83333333333333481]),
  (-29130869130869125000, [250000000000000000, 83333333333333481, 416666666666666520]),
  (-29130869130869125000, [250000000000000000, 250000000000000000, 250000000000000000]),
  (-29130869130869125000, [250000000000000000, 416666666666666520, 83333333333333481]),
  (-29130869130869125000, [416666666666666520, 83333333333333481, 250000000000000000]),
  (-29130869130869125000, [416666666666666520, 250000000000000000, 83333333333333481]),
  (-29130869130869125000, [583333333333333480, 83333333333333481, 83333333333333481]),
  (-29130869130869125000, [83333333333333481, 83333333333333481, 416666666666666520]),
  (-29130869130869125000, [83333333333333481, 250000000000000000, 250000000000000000]),
  (-29130869130869125000, [83333333333333481, 416666666666666520, 83333333333333481]),
  (-29130869130869125000, [250000000000000000, 83333333333333481, 250000000000000000]),
  (-29130869130869125000, [250000000000000000, 250000000000000000, 83333333333333481]),
  (-29130869130869125000, [416666666666666520, 83333333333333481, 83333333333333481]),
  (-29130869130869125000, [83333333333333481, 83333333333333481, 250000000000000000]),
  (-29130869130869125000, [83333333333333481, 250000000000000000, 83333333333333481]),
  (-29130869130869125000, [250000000000000000, 83333333333333481, 83333333333333481]),
  (-29130869130869125000, [83333333333333481, 83333333333333481, 83333333333333481]),
  (25484322494956187500, [99999999999999978, 99999999999999978, 699999999999999960]),
  (25484322494956187500, [99999999999999978, 299999999999999990, 500000000000000000]),
  (25484322494956187500, [99999999999999978, 500000000000000000, 299999999999999990]),
  (25484322494956187500, [99999999999999978, 699999999999999960, 99999999999999978]),
  (25484322494956187500, [299999999999999990, 99999999999999978, 500000000000000000]),
  (25484322494956187500, [299999999999999990, 299999999999999990, 299999999999999990]),
  (25484322494956187500, [299999999999999990, 500000000000000000, 99999999999999978]),
  (25484322494956187500, [500000000000000000, 99999999999999978, 299999999999999990]),
  (25484322494956187500, [500000000000000000, 299999999999999990, 99999999999999978]),
  (25484322494956187500, [699999999999999960, 99999999999999978, 99999999999999978]),
  (25484322494956187500, [99999999999999978, 99999999999999978, 500000000000000000]),
  (25484322494956187500, [99999999999999978, 299999999999999990, 299999999999999990]),
  (25484322494956187500, [99999999999999978, 500000000000000000, 99999999999999978]),
  (25484322494956187500, [299999999999999990, 99999999999999978, 299999999999999990]),
  (25484322494956187500, [299999999999999990, 299999999999999990, 99999999999999978]),
  (25484322494956187500, [500000000000000000, 99999999999999978, 99999999999999978]),
  (25484322494956187500, [99999999999999978, 99999999999999978, 299999999999999990]),
  (25484322494956187500, [99999999999999978, 299999999999999990, 99999999999999978]),
  (25484322494956187500, [299999999999999990, 99999999999999978, 99999999999999978]),
  (25484322494956187500, [99999999999999978, 99999999999999978, 99999999999999978]),
  (-8756346534124312500, [125000000000000000, 125000000000000000, 625000000000000000]),
  (-8756346534124312500, [125000000000000000, 375000000000000000, 375000000000000000]),
  (-8756346534124312500, [125000000000000000, 625000000000000000, 125000000000000000]),
  (-8756346534124312500, [375000000000000000, 125000000000000000, 375000000000000000]),
  (-8756346534124312500, [375000000000000000, 375000000000000000, 125000000000000000]),
  (-8756346534124312500, [625000000000000000, 125000000000000000, 125000000000000000]),
  (-8756346534124312500, [125000000000000000, 125000000000000000, 375000000000000000]),
  (-8756346534124312500, [125000000000000000, 375000000000000000, 125000000000000000]),
  (-8756346534124312500, [375000000000000000, 125000000000000000, 125000000000000000]),
  (-8756346534124312500, [125000000000000000, 125000000000000000, 125000000000000000]),
  (1017020089285718775, [166666666666666520, 166666666666666520, 500000000000000000]),
  (1017020089285718775, [166666666666666520, 500000000000000000, 166666666666666520]),
  (1017020089285718775, [500000000000000000, 166666666666666520, 166666666666666520]),
  (1017020089285718775, [166666666666666520, 166666666666666520, 166666666666666520]),
  (-23515579071124999, [250000000000000000, 250000000000000000, 250000000000000000])]

theorem T3_10_126_scaled : scaled 250000000000000000000 1000000000000000000 T3_10_126T T3_10_126Z = true := by decide +kernel

theorem T3_10_126_inside : PointsInside tetrahedronG T3_10_126 :=
  inside_of_test (simplex_test tetrahedron_body) (by norm_num) 11 126 T3_10_126_scaled (by decide +kernel)

theorem T3_10_126_check : check tetrahedronM 250000000000000000000 1000000000000000000 10000000000000 3 11 T3_10_126Z = true := by decide +kernel

theorem T3_10_126_integrates : Integrates tetrahedronG T3_10_126 11 (1 / (10000000000000 : ℕ)) :=
  integrates_of_check tetrahedron_compact tetrahedron_moments (by norm_num) (by norm_num) (by norm_num) 11 126 11
    (by decide) T3_10_126_scaled T3_10_126_check

theorem T3_7_31_off : (1 : ℝ) / 25000000 <
    |quadSum T3_7_31 (fun x => ∏ i, x i ^ (![7, 0, 0] : Fin 3 → ℕ) i) -
      ∫ x in body tetrahedronG, ∏ i, x i ^ (![7, 0, 0] : Fin 3 → ℕ) i| := by
  have h := error_eq tetrahedron_moments (Kw := 1000000000000000000000000000000000) (Kx := 10000000000000000)
    (by norm_num) (by norm_num) 7 35 T3_7_31_scaled ![7, 0, 0]
  refine lt_of_lt_of_eq ?_ (congrArg abs h.2).symm
  have hp : (0 : ℝ) < errDen tetrahedronM 1000000000000000000000000000000000 10000000000000000 [7, 0, 0] := by
    exact_mod_cast h.1
  have hc : Nat.blt (errDen tetrahedronM 1000000000000000000000000000000000 10000000000000000 [7, 0, 0])
      ((errNum tetrahedronM 1000000000000000000000000000000000 10000000000000000 T3_7_31Z [7, 0, 0]).natAbs * 25000000) = true := by
    decide +kernel
  have hc' := Nat.lt_of_lt_of_eq (Nat.le_of_ble_eq_true hc) rfl
  have e : List.ofFn (![7, 0, 0] : Fin 3 → ℕ) = [7, 0, 0] := rfl
  rw [e, abs_div, abs_of_pos hp, div_lt_div_iff₀ (by norm_num) hp, one_mul, ← Int.cast_abs,
    Int.abs_eq_natAbs]
  exact_mod_cast hc'

theorem T3_9_53_off : (1 : ℝ) / 100000000 <
    |quadSum T3_9_53 (fun x => ∏ i, x i ^ (![9, 0, 0] : Fin 3 → ℕ) i) -
      ∫ x in body tetrahedronG, ∏ i, x i ^ (![9, 0, 0] : Fin 3 → ℕ) i| := by
  have h := error_eq tetrahedron_moments (Kw := 500000000000000000000000000000000) (Kx := 10000000000000000)
    (by norm_num) (by norm_num) 9 56 T3_9_53_scaled ![9, 0, 0]
  refine lt_of_lt_of_eq ?_ (congrArg abs h.2).symm
  have hp : (0 : ℝ) < errDen tetrahedronM 500000000000000000000000000000000 10000000000000000 [9, 0, 0] := by
    exact_mod_cast h.1
  have hc : Nat.blt (errDen tetrahedronM 500000000000000000000000000000000 10000000000000000 [9, 0, 0])
      ((errNum tetrahedronM 500000000000000000000000000000000 10000000000000000 T3_9_53Z [9, 0, 0]).natAbs * 100000000) = true := by
    decide +kernel
  have hc' := Nat.lt_of_lt_of_eq (Nat.le_of_ble_eq_true hc) rfl
  have e : List.ofFn (![9, 0, 0] : Fin 3 → ℕ) = [9, 0, 0] := rfl
  rw [e, abs_div, abs_of_pos hp, div_lt_div_iff₀ (by norm_num) hp, one_mul, ← Int.cast_abs,
    Int.abs_eq_natAbs]
  exact_mod_cast hc'

end Verif.Quadrature
