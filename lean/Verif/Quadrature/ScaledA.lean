import Verif.Quadrature.Inside
set_option linter.all false
set_option maxRecDepth 100000
set_option maxHeartbeats 2000000

/-! # The rational tables as integers over a common denominator (generated from the tables) -/
namespace Verif.Quadrature
open RefGeometry

def Cn1_1_1Z : List (Int × List Int) := [
  (2, [0])]

theorem Cn1_1_1_scaled : scaled 1 1 Cn1_1_1T Cn1_1_1Z = true := by decide +kernel

theorem Cn1_1_1_inside : PointsInside lineG Cn1_1_1 :=
  inside_of_test (box_test line_body) (by norm_num) 1 1 Cn1_1_1_scaled (by decide +kernel)

theorem Cn1_1_1_check : check boxM 1 1 10000000000000 1 1 Cn1_1_1Z = true := by decide +kernel

theorem Cn1_1_1_integrates : Integrates lineG Cn1_1_1 1 (1 / (10000000000000 : ℕ)) :=
  integrates_of_check line_compact line_moments (by norm_num) (by norm_num) (by norm_num) 1 1 1
    (by decide) Cn1_1_1_scaled Cn1_1_1_check

def C1_7_4Z : List (Int × List Int) := [
  (347854845137453, [-861136311594053]),
  (652145154862546, [-339981043584856]),
  (652145154862546, [339981043584856]),
  (347854845137453, [861136311594053])]

theorem C1_7_4_scaled : scaled 1000000000000000 1000000000000000 C1_7_4T C1_7_4Z = true := by decide +kernel

theorem C1_7_4_inside : PointsInside lineG C1_7_4 :=
  inside_of_test (box_test line_body) (by norm_num) 7 4 C1_7_4_scaled (by decide +kernel)

theorem C1_7_4_check : check boxM 1000000000000000 1000000000000000 10000000000000 1 7 C1_7_4Z = true := by decide +kernel

theorem C1_7_4_integrates : Integrates lineG C1_7_4 7 (1 / (10000000000000 : ℕ)) :=
  integrates_of_check line_compact line_moments (by norm_num) (by norm_num) (by norm_num) 7 4 7
    (by decide) C1_7_4_scaled C1_7_4_check

def C1_9_5Z : List (Int × List Int) := [
  (2961586063202362500000000, [-906179845938663]),
  (5982858381242075000000000, [-538469310105683]),
  (7111111111111111111111111, [0]),
  (5982858381242075000000000, [538469310105683]),
  (2961586063202362500000000, [906179845938663])]

theorem C1_9_5_scaled : scaled 12500000000000000000000000 1000000000000000 C1_9_5T C1_9_5Z = true := by decide +kernel

theorem C1_9_5_inside : PointsInside lineG C1_9_5 :=
  inside_of_test (box_test line_body) (by norm_num) 9 5 C1_9_5_scaled (by decide +kernel)

theorem C1_9_5_check : check boxM 12500000000000000000000000 1000000000000000 10000000000000 1 9 C1_9_5Z = true := by decide +kernel

theorem C1_9_5_integrates : Integrates lineG C1_9_5 9 (1 / (10000000000000 : ℕ)) :=
  integrates_of_check line_compact line_moments (by norm_num) (by norm_num) (by norm_num) 9 5 9
    (by decide) C1_9_5_scaled C1_9_5_check

def C1_11_6Z : List (Int × List Int) := [
  (171324492379170, [-233117378550788]),
  (360761573048138, [-165302346616566]),
  (467913934572691, [-59654796520799]),
  (467913934572691, [59654796520799]),
  (360761573048138, [165302346616566]),
  (171324492379170, [233117378550788])]

theorem C1_11_6_scaled : scaled 1000000000000000 250000000000000 C1_11_6T C1_11_6Z = true := by decide +kernel

theorem C1_11_6_inside : PointsInside lineG C1_11_6 :=
  inside_of_test (box_test line_body) (by norm_num) 11 6 C1_11_6_scaled (by decide +kernel)

theorem C1_11_6_check : check boxM 1000000000000000 250000000000000 10000000000000 1 11 C1_11_6Z = true := by decide +kernel

theorem C1_11_6_integrates : Integrates lineG C1_11_6 11 (1 / (10000000000000 : ℕ)) :=
  integrates_of_check line_compact line_moments (by norm_num) (by norm_num) (by norm_num) 11 6 11
    (by decide) C1_11_6_scaled C1_11_6_check

def Cn2_1_1Z : List (Int × List Int) := [
  (4, [0, 0])]

theorem Cn2_1_1_scaled : scaled 1 1 Cn2_1_1T Cn2_1_1Z = true := by decide +kernel

theorem Cn2_1_1_inside : PointsInside squareG Cn2_1_1 :=
  inside_of_test (box_test square_body) (by norm_num) 1 1 Cn2_1_1_scaled (by decide +kernel)

theorem Cn2_1_1_check : check boxM 1 1 10000000000000 2 1 Cn2_1_1Z = true := by decide +kernel

theorem Cn2_1_1_integrates : Integrates squareG Cn2_1_1 1 (1 / (10000000000000 : ℕ)) :=
  integrates_of_check square_compact square_moments (by norm_num) (by norm_num) (by norm_num) 1 1 1
    (by decide) Cn2_1_1_scaled Cn2_1_1_check

def Cn3_1_1Z : List (Int × List Int) := [
  (8, [0, 0, 0])]

theorem Cn3_1_1_scaled : scaled 1 1 Cn3_1_1T Cn3_1_1Z = true := by decide +kernel

theorem Cn3_1_1_inside : PointsInside cubeG Cn3_1_1 :=
  inside_of_test (box_test cube_body) (by norm_num) 1 1 Cn3_1_1_scaled (by decide +kernel)

theorem Cn3_1_1_check : check boxM 1 1 10000000000000 3 1 Cn3_1_1Z = true := by decide +kernel

theorem Cn3_1_1_integrates : Integrates cubeG Cn3_1_1 1 (1 / (10000000000000 : ℕ)) :=
  integrates_of_check cube_compact cube_moments (by norm_num) (by norm_num) (by norm_num) 1 1 1
    (by decide) Cn3_1_1_scaled Cn3_1_1_check

def Cn4_1_1Z : List (Int × List Int) := [
  (16, [0, 0, 0, 0])]

theorem Cn4_1_1_scaled : scaled 1 1 Cn4_1_1T Cn4_1_1Z = true := by decide +kernel

theorem Cn4_1_1_inside : PointsInside hypercubeG Cn4_1_1 :=
  inside_of_test (box_test hypercube_body) (by norm_num) 1 1 Cn4_1_1_scaled (by decide +kernel)

theorem Cn4_1_1_check : check boxM 1 1 10000000000000 4 1 Cn4_1_1Z = true := by decide +kernel

theorem Cn4_1_1_integrates : Integrates hypercubeG Cn4_1_1 1 (1 / (10000000000000 : ℕ)) :=
  integrates_of_check hypercube_compact hypercube_moments (by norm_num) (by norm_num) (by norm_num) 1 1 1
    (by decide) Cn4_1_1_scaled Cn4_1_1_check

def Tn2_1_1Z : List (Int × List Int) := [
  (1, [8333333333333337, 8333333333333337])]

theorem Tn2_1_1_scaled : scaled 2 25000000000000000 Tn2_1_1T Tn2_1_1Z = true := by decide +kernel

theorem Tn2_1_1_inside : PointsInside triangleG Tn2_1_1 :=
  inside_of_test (simplex_test triangle_body) (by norm_num) 1 1 Tn2_1_1_scaled (by decide +kernel)

theorem Tn2_1_1_check : check triangleM 2 25000000000000000 10000000000000 2 1 Tn2_1_1Z = true := by decide +kernel

theorem Tn2_1_1_integrates : Integrates triangleG Tn2_1_1 1 (1 / (10000000000000 : ℕ)) :=
  integrates_of_check triangle_compact triangle_moments (by norm_num) (by norm_num) (by norm_num) 1 1 1
    (by decide) Tn2_1_1_scaled Tn2_1_1_check

def Tn2_2_3Z : List (Int × List Int) := [
  (8333333333333337, [4166666666666663, 4166666666666663]),
  (8333333333333337, [4166666666666663, 16666666666666663]),
  (8333333333333337, [16666666666666663, 4166666666666663])]

theorem Tn2_2_3_scaled : scaled 50000000000000000 25000000000000000 Tn2_2_3T Tn2_2_3Z = true := by decide +kernel

theorem Tn2_2_3_inside : PointsInside triangleG Tn2_2_3 :=
  inside_of_test (simplex_test triangle_body) (by norm_num) 2 3 Tn2_2_3_scaled (by decide +kernel)

theorem Tn2_2_3_check : check triangleM 50000000000000000 25000000000000000 10000000000000 2 2 Tn2_2_3Z = true := by decide +kernel

theorem Tn2_2_3_integrates : Integrates triangleG Tn2_2_3 2 (1 / (10000000000000 : ℕ)) :=
  integrates_of_check triangle_compact triangle_moments (by norm_num) (by norm_num) (by norm_num) 2 3 2
    (by decide) Tn2_2_3_scaled Tn2_2_3_check

def Tn2_4_6Z : List (Int × List Int) := [
  (55845397419502750, [445948490915965000, 445948490915965000]),
  (55845397419502750, [445948490915965000, 108103018168070000]),
  (55845397419502750, [108103018168070000, 445948490915965000]),
  (27487935913830499, [91576213509771021, 91576213509771021]),
  (27487935913830499, [91576213509771021, 816847572980458960]),
  (27487935913830499, [816847572980458960, 91576213509771021])]

theorem Tn2_4_6_scaled : scaled 500000000000000000 1000000000000000000 Tn2_4_6T Tn2_4_6Z = true := by decide +kernel

theorem Tn2_4_6_inside : PointsInside triangleG Tn2_4_6 :=
  inside_of_test (simplex_test triangle_body) (by norm_num) 4 6 Tn2_4_6_scaled (by decide +kernel)

theorem Tn2_4_6_check : check triangleM 500000000000000000 1000000000000000000 10000000000000 2 4 Tn2_4_6Z = true := by decide +kernel

theorem Tn2_4_6_integrates : Integrates triangleG Tn2_4_6 4 (1 / (10000000000000 : ℕ)) :=
  integrates_of_check triangle_compact triangle_moments (by norm_num) (by norm_num) (by norm_num) 4 6 4
    (by decide) Tn2_4_6_scaled Tn2_4_6_check

def T2_5_7Z : List (Int × List Int) := [
  (112500000000000000, [333333333333333480, 333333333333333480]),
  (66197076394252999, [470142064105115000, 470142064105115000]),
  (66197076394252999, [470142064105115000, 59715871789770003]),
  (66197076394252999, [59715871789770003, 470142064105115000]),
  (62969590272413500, [101286507323456010, 101286507323456010]),
  (62969590272413500, [101286507323456010, 797426985353086980]),
  (62969590272413500, [797426985353086980, 101286507323456010])]

theorem T2_5_7_scaled : scaled 1000000000000000000 1000000000000000000 T2_5_7T T2_5_7Z = true := by decide +kernel

theorem T2_5_7_inside : PointsInside triangleG T2_5_7 :=
  inside_of_test (simplex_test triangle_body) (by norm_num) 5 7 T2_5_7_scaled (by decide +kernel)

theorem T2_5_7_check : check triangleM 1000000000000000000 1000000000000000000 10000000000000 2 5 T2_5_7Z = true := by decide +kernel

theorem T2_5_7_integrates : Integrates triangleG T2_5_7 5 (1 / (10000000000000 : ℕ)) :=
  integrates_of_check triangle_compact triangle_moments (by norm_num) (by norm_num) (by norm_num) 5 7 5
    (by decide) T2_5_7_scaled T2_5_7_check

def T2_6_12Z : List (Int × List Int) := [
  (58393137863189497, [249286745170909980, 249286745170909980]),
  (58393137863189497, [249286745170909980, 501426509658179030]),
  (58393137863189497, [501426509658179030, 249286745170909980]),
  (25422453185103500, [63089014491502005, 63089014491502005]),
  (25422453185103500, [63089014491502005, 873821971016995990]),
  (25422453185103500, [873821971016995990, 63089014491502005]),
  (41425537809187001, [310352451033784000, 636502499121399000]),
  (41425537809187001, [636502499121399000, 53145049844816994]),
  (41425537809187001, [53145049844816994, 310352451033784000]),
  (41425537809187001, [310352451033784000, 53145049844816994]),
  (41425537809187001, [636502499121399000, 310352451033784000]),
  (41425537809187001, [53145049844816994, 636502499121399000])]

theorem T2_6_12_scaled : scaled 1000000000000000000 1000000000000000000 T2_6_12T T2_6_12Z = true := by decide +kernel

theorem T2_6_12_inside : PointsInside triangleG T2_6_12 :=
  inside_of_test (simplex_test triangle_body) (by norm_num) 6 12 T2_6_12_scaled (by decide +kernel)

theorem T2_6_12_check : check triangleM 1000000000000000000 1000000000000000000 10000000000000 2 6 T2_6_12Z = true := by decide +kernel

theorem T2_6_12_integrates : Integrates triangleG T2_6_12 6 (1 / (10000000000000 : ℕ)) :=
  integrates_of_check triangle_compact triangle_moments (by norm_num) (by norm_num) (by norm_num) 6 12 6
    (by decide) T2_6_12_scaled T2_6_12_check

def T2_8_16Z : List (Int × List Int) := [
  (72157803838893503, [1666666666666667400, 1666666666666667400]),
  (47545817133642497, [2296462941463615050, 2296462941463615050]),
  (47545817133642497, [2296462941463615050, 407074117072770135]),
  (47545817133642497, [407074117072770135, 2296462941463615050]),
  (51608685267358997, [852846538758799950, 852846538758799950]),
  (51608685267358997, [852846538758799950, 3294306922482400100]),
  (51608685267358997, [3294306922482400100, 852846538758799950]),
  (16229248811599001, [252736141585155060, 252736141585155060]),
  (16229248811598752, [252736141585155060, 4494527716829689900]),
  (16229248811599001, [4494527716829689900, 252736141585155060]),
  (13615157087217500, [1315564148173190000, 3642461964777020100]),
  (13615157087217500, [3642461964777020100, 41973887049789882]),
  (13615157087217500, [41973887049789882, 1315564148173190000]),
  (13615157087217500, [1315564148173190000, 41973887049789882]),
  (13615157087217500, [3642461964777020100, 1315564148173190000]),
  (13615157087217500, [41973887049789882, 3642461964777020100])]

theorem T2_8_16_scaled : scaled 1000000000000000000 5000000000000000000 T2_8_16T T2_8_16Z = true := by decide +kernel

theorem T2_8_16_inside : PointsInside triangleG T2_8_16 :=
  inside_of_test (simplex_test triangle_body) (by norm_num) 8 16 T2_8_16_scaled (by decide +kernel)

theorem T2_8_16_check : check triangleM 1000000000000000000 5000000000000000000 10000000000000 2 8 T2_8_16Z = true := by decide +kernel

theorem T2_8_16_integrates : Integrates triangleG T2_8_16 8 (1 / (10000000000000 : ℕ)) :=
  integrates_of_check triangle_compact triangle_moments (by norm_num) (by norm_num) (by norm_num) 8 16 8
    (by decide) T2_8_16_scaled T2_8_16_check

def T2_9_19Z : List (Int × List Int) := [
  (48567898141399501, [333333333333333480, 333333333333333480]),
  (15667350113569501, [489682519198738010, 489682519198738010]),
  (15667350113569501, [489682519198738010, 20634961602524982]),
  (15667350113569501, [20634961602524982, 489682519198738010]),
  (38913770502387000, [437089591492937020, 437089591492937020]),
  (38913770502387000, [437089591492937020, 125820817014127010]),
  (38913770502387000, [125820817014127010, 437089591492937020]),
  (39823869463604999, [188203535619033020, 188203535619033020]),
  (39823869463604999, [188203535619033020, 623592928761935060]),
  (39823869463604999, [623592928761935060, 188203535619033020]),
  (12788837829349000, [44729513394453024, 44729513394453024]),
  (12788837829349000, [44729513394453024, 910540973211094950]),
  (12788837829349000, [910540973211094950, 44729513394453024]),
  (21641769688644501, [221962989160766010, 741198598784498010]),
  (21641769688644501, [741198598784498010, 36838412054735981]),
  (21641769688644501, [36838412054735981, 221962989160766010]),
  (21641769688644501, [221962989160766010, 36838412054735981]),
  (21641769688644501, [741198598784498010, 221962989160766010]),
  (21641769688644501, [36838412054735981, 741198598784498010])]

theorem T2_9_19_scaled : scaled 1000000000000000000 1000000000000000000 T2_9_19T T2_9_19Z = true := by decide +kernel

theorem T2_9_19_inside : PointsInside triangleG T2_9_19 :=
  inside_of_test (simplex_test triangle_body) (by norm_num) 9 19 T2_9_19_scaled (by decide +kernel)

theorem T2_9_19_check : check triangleM 1000000000000000000 1000000000000000000 10000000000000 2 9 T2_9_19Z = true := by decide +kernel

theorem T2_9_19_integrates : Integrates triangleG T2_9_19 9 (1 / (10000000000000 : ℕ)) :=
  integrates_of_check triangle_compact triangle_moments (by norm_num) (by norm_num) (by norm_num) 9 19 9
    (by decide) T2_9_19_scaled T2_9_19_check

def T2_10_25Z : List (Int × List Int) := [
  (22704497595688499, [1666666666666667400, 1666666666666667400]),
  (9181489439116749, [2427888166918285000, 2427888166918285000]),
  (9181489439116749, [2427888166918285000, 144223666163424970]),
  (9181489439116749, [144223666163424970, 2427888166918285000]),
  (11330264858882000, [547407877425185050, 547407877425185050]),
  (11330264858882000, [547407877425185050, 3905184245149629900]),
  (11330264858882000, [3905184245149629900, 547407877425185050]),
  (18189479211355001, [1539699193820605050, 2751764709104995150]),
  (18189479211355001, [2751764709104995150, 708536097074400050]),
  (18189479211355001, [708536097074400050, 1539699193820605050]),
  (18189479211355001, [1539699193820605050, 708536097074400050]),
  (18189479211355001, [2751764709104995150, 1539699193820605050]),
  (18189479211355001, [708536097074400050, 2751764709104995150]),
  (7081810632764250, [1233362803199515000, 3641619522987055150]),
  (7081810632764250, [3641619522987055150, 125017673813430095]),
  (7081810632764250, [125017673813430095, 1233362803199515000]),
  (7081810632764250, [1233362803199515000, 125017673813430095]),
  (7081810632764250, [3641619522987055150, 1233362803199515000]),
  (7081810632764250, [125017673813430095, 3641619522987055150]),
  (2355416740933250, [334016255061000135, 4618279667937499900]),
  (2355416740933250, [4618279667937499900, 47704077001494982]),
  (2355416740933250, [47704077001494982, 334016255061000135]),
  (2355416740933250, [334016255061000135, 47704077001494982]),
  (2355416740933250, [4618279667937499900, 334016255061000135]),
  (2355416740933250, [47704077001494982, 4618279667937499900])]

theorem T2_10_25_scaled : scaled 500000000000000000 5000000000000000000 T2_10_25T T2_10_25Z = true := by decide +kernel

theorem T2_10_25_inside : PointsInside triangleG T2_10_25 :=
  inside_of_test (simplex_test triangle_body) (by norm_num) 10 25 T2_10_25_scaled (by decide +kernel)

theorem T2_10_25_check : check triangleM 500000000000000000 5000000000000000000 10000000000000 2 10 T2_10_25Z = true := by decide +kernel

theorem T2_10_25_integrates : Integrates triangleG T2_10_25 10 (1 / (10000000000000 : ℕ)) :=
  integrates_of_check triangle_compact triangle_moments (by norm_num) (by norm_num) (by norm_num) 10 25 10
    (by decide) T2_10_25_scaled T2_10_25_check

def T2_11_28Z : List (Int × List Int) := [
  (4002560504707270735911973, [333333333333333330000000000, 333333333333333330000000000]),
  (3356034296088974684601830, [215471752969855400000000000, 215471752969855400000000000]),
  (3356034296088974684601830, [215471752969855400000000000, 569056494060289200000000000]),
  (3356034296088974684601830, [569056494060289200000000000, 215471752969855400000000000]),
  (630292655139109350660500, [31279552211013929920895700, 31279552211013929920895700]),
  (630292655139109350660500, [31279552211013929920895700, 937440895577972140158208600]),
  (630292655139109350660500, [937440895577972140158208600, 31279552211013929920895700]),
  (2029123046287385594695000, [115503535773792148927100000, 115503535773792148927100000]),
  (2029123046287385594695000, [115503535773792148927100000, 768992928452415702145800000]),
  (2029123046287385594695000, [768992928452415702145800000, 115503535773792148927100000]),
  (3085618428148322023030985, [435777415282330105141800000, 435777415282330105141800000]),
  (3085618428148322023030985, [435777415282330105141800000, 128445169435339789716400000]),
  (3085618428148322023030985, [128445169435339789716400000, 435777415282330105141800000]),
  (560420296526140259965000, [499884038677315398162480000, 499884038677315398162480000]),
  (560420296526140259965000, [499884038677315398162480000, 231922645369203675040000]),
  (560420296526140259965000, [231922645369203675040000, 499884038677315398162480000]),
  (2057647982340727144660706, [316426202230852700000000000, 48055796920866524676254359]),
  (2057647982340727144660706, [48055796920866524676254359, 316426202230852700000000000]),
  (2057647982340727144660706, [316426202230852700000000000, 635518000848280775323745641]),
  (2057647982340727144660706, [635518000848280775323745641, 316426202230852700000000000]),
  (2057647982340727144660706, [48055796920866524676254359, 635518000848280775323745641]),
  (2057647982340727144660706, [635518000848280775323745641, 48055796920866524676254359]),
  (777847572446428442875000, [161418848910893700000000000, 15654453722368303783700000]),
  (777847572446428442875000, [15654453722368303783700000, 161418848910893700000000000]),
  (777847572446428442875000, [161418848910893700000000000, 822926697366737996216300000]),
  (777847572446428442875000, [822926697366737996216300000, 161418848910893700000000000]),
  (777847572446428442875000, [15654453722368303783700000, 822926697366737996216300000]),
  (777847572446428442875000, [822926697366737996216300000, 15654453722368303783700000])]

theorem T2_11_28_scaled : scaled 100000000000000000000000000 1000000000000000000000000000 T2_11_28T T2_11_28Z = true := by decide +kernel

theorem T2_11_28_inside : PointsInside triangleG T2_11_28 :=
  inside_of_test (simplex_test triangle_body) (by norm_num) 11 28 T2_11_28_scaled (by decide +kernel)

theorem T2_11_28_check : check triangleM 100000000000000000000000000 1000000000000000000000000000 10000000000000 2 11 T2_11_28Z = true := by decide +kernel

theorem T2_11_28_integrates : Integrates triangleG T2_11_28 11 (1 / (10000000000000 : ℕ)) :=
  integrates_of_check triangle_compact triangle_moments (by norm_num) (by norm_num) (by norm_num) 11 28 11
    (by decide) T2_11_28_scaled T2_11_28_check

def Pyramid_1_4Z : List (Int × List Int) := [
  (11088841560, [0, 0, 970010989]),
  (14345878980, [0, 0, 4772014752]),
  (6863388717, [0, 0, 10340945902]),
  (1035224075, [0, 0, 15917028358])]

theorem Pyramid_1_4_scaled : scaled 25000000000 20000000000 Pyramid_1_4T Pyramid_1_4Z = true := by decide +kernel

theorem Pyramid_1_4_inside : PointsInside pyramidG Pyramid_1_4 :=
  inside_of_test pyramid_test (by norm_num) 1 4 Pyramid_1_4_scaled (by decide +kernel)

theorem Pyramid_1_4_check : check pyramidM 25000000000 20000000000 10000000000 3 1 Pyramid_1_4Z = true := by decide +kernel

theorem Pyramid_1_4_integrates : Integrates pyramidG Pyramid_1_4 1 (1 / (10000000000 : ℕ)) :=
  integrates_of_check pyramid_compact pyramid_moments (by norm_num) (by norm_num) (by norm_num) 1 4 1
    (by decide) Pyramid_1_4_scaled Pyramid_1_4_check

def TriPrism_1_1Z : List (Int × List Int) := [
  (1, [1, 1, 0])]

theorem TriPrism_1_1_scaled : scaled 1 3 TriPrism_1_1T TriPrism_1_1Z = true := by decide +kernel

theorem TriPrism_1_1_inside : PointsInside prismG TriPrism_1_1 :=
  inside_of_test prism_test (by norm_num) 1 1 TriPrism_1_1_scaled (by decide +kernel)

theorem TriPrism_1_1_check : check prismM 1 3 10000000000000 3 1 TriPrism_1_1Z = true := by decide +kernel

theorem TriPrism_1_1_integrates : Integrates prismG TriPrism_1_1 1 (1 / (10000000000000 : ℕ)) :=
  integrates_of_check prism_compact prism_moments (by norm_num) (by norm_num) (by norm_num) 1 1 1
    (by decide) TriPrism_1_1_scaled TriPrism_1_1_check

def TriPrism_7_64Z : List (Int × List Int) := [
  (1024796383636830906388680046, [3273349718231969580, 2855209805000000000, -43056815600000000000]),
  (1921249640381094448611319954, [15558227612100426249, 2855209805000000000, -43056815600000000000]),
  (1921249640381094448611319954, [31586562582899573751, 2855209805000000000, -43056815600000000000]),
  (1024796383636830906388680046, [43871440476768030420, 2855209805000000000, -43056815600000000000]),
  (1538738860275966327614847920, [2510506153361746080, 13842150680000000000, -43056815600000000000]),
  (2884769627556838272385152080, [11932432986927424824, 13842150680000000000, -43056815600000000000]),
  (2884769627556838272385152080, [24225416333072575176, 13842150680000000000, -43056815600000000000]),
  (1538738860275966327614847920, [33647343166638253920, 13842150680000000000, -43056815600000000000]),
  (981996371002804217297265044, [1445604206885532720, 29179521620000000000, -43056815600000000000]),
  (1841009789622047752702734956, [6870955206058181316, 29179521620000000000, -43056815600000000000]),
  (1841009789622047752702734956, [13949523173941818684, 29179521620000000000, -43056815600000000000]),
  (981996371002804217297265044, [19374874173114467280, 29179521620000000000, -43056815600000000000]),
  (235811925863003685392232221, [485189254776938460, 43012006785000000000, -43056815600000000000]),
  (442091311987321607107767779, [2306103994547290413, 43012006785000000000, -43056815600000000000]),
  (442091311987321607107767779, [4681889220452709587, 43012006785000000000, -43056815600000000000]),
  (235811925863003685392232221, [6502803960223061540, 43012006785000000000, -43056815600000000000]),
  (1921249640381094448611319954, [3273349718231969580, 2855209805000000000, -16999052180000000000]),
  (3601886423100980196388680046, [15558227612100426249, 2855209805000000000, -16999052180000000000]),
  (3601886423100980196388680046, [31586562582899573751, 2855209805000000000, -16999052180000000000]),
  (1921249640381094448611319954, [43871440476768030420, 2855209805000000000, -16999052180000000000]),
  (2884769627556838272385152080, [2510506153361746080, 13842150680000000000, -16999052180000000000]),
  (5408257384610357127614847920, [11932432986927424824, 13842150680000000000, -16999052180000000000]),
  (5408257384610357127614847920, [24225416333072575176, 13842150680000000000, -16999052180000000000]),
  (2884769627556838272385152080, [33647343166638253920, 13842150680000000000, -16999052180000000000]),
  (1841009789622047752702734956, [1445604206885532720, 29179521620000000000, -16999052180000000000]),
  (3451455774753100277297265044, [6870955206058181316, 29179521620000000000, -16999052180000000000]),
  (3451455774753100277297265044, [13949523173941818684, 29179521620000000000, -16999052180000000000]),
  (1841009789622047752702734956, [19374874173114467280, 29179521620000000000, -16999052180000000000]),
  (442091311987321607107767779, [485189254776938460, 43012006785000000000, -16999052180000000000]),
  (828816131412353100392232221, [2306103994547290413, 43012006785000000000, -16999052180000000000]),
  (828816131412353100392232221, [4681889220452709587, 43012006785000000000, -16999052180000000000]),
  (442091311987321607107767779, [6502803960223061540, 43012006785000000000, -16999052180000000000]),
  (1921249640381094448611319954, [3273349718231969580, 2855209805000000000, 16999052180000000000]),
  (3601886423100980196388680046, [15558227612100426249, 2855209805000000000, 16999052180000000000]),
  (3601886423100980196388680046, [31586562582899573751, 2855209805000000000, 16999052180000000000]),
  (1921249640381094448611319954, [43871440476768030420, 2855209805000000000, 16999052180000000000]),
  (2884769627556838272385152080, [2510506153361746080, 13842150680000000000, 16999052180000000000]),
  (5408257384610357127614847920, [11932432986927424824, 13842150680000000000, 16999052180000000000]),
  (5408257384610357127614847920, [24225416333072575176, 13842150680000000000, 16999052180000000000]),
  (2884769627556838272385152080, [33647343166638253920, 13842150680000000000, 16999052180000000000]),
  (1841009789622047752702734956, [1445604206885532720, 29179521620000000000, 16999052180000000000]),
  (3451455774753100277297265044, [6870955206058181316, 29179521620000000000, 16999052180000000000]),
  (3451455774753100277297265044, [13949523173941818684, 29179521620000000000, 16999052180000000000]),
  (1841009789622047752702734956, [19374874173114467280, 29179521620000000000, 16999052180000000000]),
  (442091311987321607107767779, [485189254776938460, 43012006785000000000, 16999052180000000000]),
  (828816131412353100392232221, [2306103994547290413, 43012006785000000000, 16999052180000000000]),
  (828816131412353100392232221, [4681889220452709587, 43012006785000000000, 16999052180000000000]),
  (442091311987321607107767779, [6502803960223061540, 43012006785000000000, 16999052180000000000]),
  (1024796383636830906388680046, [3273349718231969580, 2855209805000000000, 43056815600000000000]),
  (1921249640381094448611319954, [15558227612100426249, 2855209805000000000, 43056815600000000000]),
  (1921249640381094448611319954, [31586562582899573751, 2855209805000000000, 43056815600000000000]),
  (1024796383636830906388680046, [43871440476768030420, 2855209805000000000, 43056815600000000000]),
  (1538738860275966327614847920, [2510506153361746080, 13842150680000000000, 43056815600000000000]),
  (2884769627556838272385152080, [11932432986927424824, 13842150680000000000, 43056815600000000000]),
  (2884769627556838272385152080, [24225416333072575176, 13842150680000000000, 43056815600000000000]),
  (1538738860275966327614847920, [33647343166638253920, 13842150680000000000, 43056815600000000000]),
  (981996371002804217297265044, [1445604206885532720, 29179521620000000000, 43056815600000000000]),
  (1841009789622047752702734956, [6870955206058181316, 29179521620000000000, 43056815600000000000]),
  (1841009789622047752702734956, [13949523173941818684, 29179521620000000000, 43056815600000000000]),
  (981996371002804217297265044, [19374874173114467280, 29179521620000000000, 43056815600000000000]),
  (235811925863003685392232221, [485189254776938460, 43012006785000000000, 43056815600000000000]),
  (442091311987321607107767779, [2306103994547290413, 43012006785000000000, 43056815600000000000]),
  (442091311987321607107767779, [4681889220452709587, 43012006785000000000, 43056815600000000000]),
  (235811925863003685392232221, [6502803960223061540, 43012006785000000000, 43056815600000000000])]

theorem TriPrism_7_64_scaled : scaled 125000000000000000000000000000 50000000000000000000 TriPrism_7_64T TriPrism_7_64Z = true := by decide +kernel

theorem TriPrism_7_64_inside : PointsInside prismG TriPrism_7_64 :=
  inside_of_test prism_test (by norm_num) 7 64 TriPrism_7_64_scaled (by decide +kernel)

theorem TriPrism_7_64_check : check prismM 125000000000000000000000000000 50000000000000000000 1000000000 3 7 TriPrism_7_64Z = true := by decide +kernel

theorem TriPrism_7_64_integrates : Integrates prismG TriPrism_7_64 7 (1 / (1000000000 : ℕ)) :=
  integrates_of_check prism_compact prism_moments (by norm_num) (by norm_num) (by norm_num) 7 64 7
    (by decide) TriPrism_7_64_scaled TriPrism_7_64_check

end Verif.Quadrature
