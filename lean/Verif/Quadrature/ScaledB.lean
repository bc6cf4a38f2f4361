import Verif.Quadrature.Inside
set_option linter.all false
set_option maxRecDepth 100000
set_option maxHeartbeats 2000000

/-! # The rational tables as integers over a common denominator (generated from the tables) -/
namespace Verif.Quadrature
open RefGeometry

def C2_9_5Z : List (Int × List Int) := [
  (8770992009754467888388625581406250000000000000000, [-906179845938663, -906179845938663]),
  (17718749999999976128374824402187500000000000000000, [-906179845938663, -538469310105683]),
  (21060167560550133333333333004268215199737500000000, [-906179845938663, 0]),
  (17718749999999976128374824402187500000000000000000, [-906179845938663, 538469310105683]),
  (8770992009754467888388625581406250000000000000000, [-906179845938663, 906179845938663]),
  (17718749999999976128374824402187500000000000000000, [-538469310105683, -906179845938663]),
  (35794594409998542046219750305625000000000000000000, [-538469310105683, -538469310105683]),
  (42544770711054755555555554890793513195325000000000, [-538469310105683, 0]),
  (35794594409998542046219750305625000000000000000000, [-538469310105683, 538469310105683]),
  (17718749999999976128374824402187500000000000000000, [-538469310105683, 906179845938663]),
  (21060167560550133333333333004268215199737500000000, [0, -906179845938663]),
  (42544770711054755555555554890793513195325000000000, [0, -538469310105683]),
  (50567901234567901234567899654320987654320987654321, [0, 0]),
  (42544770711054755555555554890793513195325000000000, [0, 538469310105683]),
  (21060167560550133333333333004268215199737500000000, [0, 906179845938663]),
  (17718749999999976128374824402187500000000000000000, [538469310105683, -906179845938663]),
  (35794594409998542046219750305625000000000000000000, [538469310105683, -538469310105683]),
  (42544770711054755555555554890793513195325000000000, [538469310105683, 0]),
  (35794594409998542046219750305625000000000000000000, [538469310105683, 538469310105683]),
  (17718749999999976128374824402187500000000000000000, [538469310105683, 906179845938663]),
  (8770992009754467888388625581406250000000000000000, [906179845938663, -906179845938663]),
  (17718749999999976128374824402187500000000000000000, [906179845938663, -538469310105683]),
  (21060167560550133333333333004268215199737500000000, [906179845938663, 0]),
  (17718749999999976128374824402187500000000000000000, [906179845938663, 538469310105683]),
  (8770992009754467888388625581406250000000000000000, [906179845938663, 906179845938663])]

theorem C2_9_5_scaled : scaled 156250000000000000000000000000000000000000000000000 1000000000000000 C2_9_5T C2_9_5Z = true := by decide +kernel

theorem C2_9_5_inside : PointsInside squareG C2_9_5 :=
  inside_of_test (box_test square_body) (by norm_num) 9 25 C2_9_5_scaled (by decide +kernel)

theorem C2_9_5_check : check boxM 156250000000000000000000000000000000000000000000000 1000000000000000 10000000000000 2 9 C2_9_5Z = true := by decide +kernel

theorem C2_9_5_integrates : Integrates squareG C2_9_5 9 (1 / (10000000000000 : ℕ)) :=
  integrates_of_check square_compact square_moments (by norm_num) (by norm_num) (by norm_num) 9 25 9
    (by decide) C2_9_5_scaled C2_9_5_check

def C2_11_6Z : List (Int × List Int) := [
  (29352081688980279407049888900, [-233117378550788, -233117378550788]),
  (61807293372383100048558485460, [-233117378550788, -165302346616566]),
  (80165117317806449219899246470, [-233117378550788, -59654796520799]),
  (80165117317806449219899246470, [-233117378550788, 59654796520799]),
  (61807293372383100048558485460, [-233117378550788, 165302346616566]),
  (29352081688980279407049888900, [-233117378550788, 233117378550788]),
  (61807293372383100048558485460, [-165302346616566, -233117378550788]),
  (130148912588167010204465267044, [-165302346616566, -165302346616566]),
  (168805367087587528985403199358, [-165302346616566, -59654796520799]),
  (168805367087587528985403199358, [-165302346616566, 59654796520799]),
  (130148912588167010204465267044, [-165302346616566, 165302346616566]),
  (61807293372383100048558485460, [-165302346616566, 233117378550788]),
  (80165117317806449219899246470, [-59654796520799, -233117378550788]),
  (168805367087587528985403199358, [-59654796520799, -165302346616566]),
  (218943450167296553880762981481, [-59654796520799, -59654796520799]),
  (218943450167296553880762981481, [-59654796520799, 59654796520799]),
  (168805367087587528985403199358, [-59654796520799, 165302346616566]),
  (80165117317806449219899246470, [-59654796520799, 233117378550788]),
  (80165117317806449219899246470, [59654796520799, -233117378550788]),
  (168805367087587528985403199358, [59654796520799, -165302346616566]),
  (218943450167296553880762981481, [59654796520799, -59654796520799]),
  (218943450167296553880762981481, [59654796520799, 59654796520799]),
  (168805367087587528985403199358, [59654796520799, 165302346616566]),
  (80165117317806449219899246470, [59654796520799, 233117378550788]),
  (61807293372383100048558485460, [165302346616566, -233117378550788]),
  (130148912588167010204465267044, [165302346616566, -165302346616566]),
  (168805367087587528985403199358, [165302346616566, -59654796520799]),
  (168805367087587528985403199358, [165302346616566, 59654796520799]),
  (130148912588167010204465267044, [165302346616566, 165302346616566]),
  (61807293372383100048558485460, [165302346616566, 233117378550788]),
  (29352081688980279407049888900, [233117378550788, -233117378550788]),
  (61807293372383100048558485460, [233117378550788, -165302346616566]),
  (80165117317806449219899246470, [233117378550788, -59654796520799]),
  (80165117317806449219899246470, [233117378550788, 59654796520799]),
  (61807293372383100048558485460, [233117378550788, 165302346616566]),
  (29352081688980279407049888900, [233117378550788, 233117378550788])]

theorem C2_11_6_scaled : scaled 1000000000000000000000000000000 250000000000000 C2_11_6T C2_11_6Z = true := by decide +kernel

theorem C2_11_6_inside : PointsInside squareG C2_11_6 :=
  inside_of_test (box_test square_body) (by norm_num) 11 36 C2_11_6_scaled (by decide +kernel)

theorem C2_11_6_check : check boxM 1000000000000000000000000000000 250000000000000 10000000000000 2 11 C2_11_6Z = true := by decide +kernel

theorem C2_11_6_integrates : Integrates squareG C2_11_6 11 (1 / (10000000000000 : ℕ)) :=
  integrates_of_check square_compact square_moments (by norm_num) (by norm_num) (by norm_num) 11 36 11
    (by decide) C2_11_6_scaled C2_11_6_check

def C3_7_2Z : List (Int × List Int) := [
  (42091477490531143308942030201034877319858677, [-861136311594053, -861136311594053, -861136311594053]),
  (78911515795070144726528011406556084216814114, [-861136311594053, -861136311594053, -339981043584856]),
  (78911515795070144726528011406556084216814114, [-861136311594053, -861136311594053, 339981043584856]),
  (42091477490531143308942030201034877319858677, [-861136311594053, -861136311594053, 861136311594053]),
  (78911515795070144726528011406556084216814114, [-861136311594053, -339981043584856, -861136311594053]),
  (147940336056780871528311672080200809091650548, [-861136311594053, -339981043584856, -339981043584856]),
  (147940336056780871528311672080200809091650548, [-861136311594053, -339981043584856, 339981043584856]),
  (78911515795070144726528011406556084216814114, [-861136311594053, -339981043584856, 861136311594053]),
  (78911515795070144726528011406556084216814114, [-861136311594053, 339981043584856, -861136311594053]),
  (147940336056780871528311672080200809091650548, [-861136311594053, 339981043584856, -339981043584856]),
  (147940336056780871528311672080200809091650548, [-861136311594053, 339981043584856, 339981043584856]),
  (78911515795070144726528011406556084216814114, [-861136311594053, 339981043584856, 861136311594053]),
  (42091477490531143308942030201034877319858677, [-861136311594053, 861136311594053, -861136311594053]),
  (78911515795070144726528011406556084216814114, [-861136311594053, 861136311594053, -339981043584856]),
  (78911515795070144726528011406556084216814114, [-861136311594053, 861136311594053, 339981043584856]),
  (42091477490531143308942030201034877319858677, [-861136311594053, 861136311594053, 861136311594053]),
  (78911515795070144726528011406556084216814114, [-339981043584856, -861136311594053, -861136311594053]),
  (147940336056780871528311672080200809091650548, [-339981043584856, -861136311594053, -339981043584856]),
  (147940336056780871528311672080200809091650548, [-339981043584856, -861136311594053, 339981043584856]),
  (78911515795070144726528011406556084216814114, [-339981043584856, -861136311594053, 861136311594053]),
  (147940336056780871528311672080200809091650548, [-339981043584856, -339981043584856, -861136311594053]),
  (277352966953912807926538919341694442754747336, [-339981043584856, -339981043584856, -339981043584856]),
  (277352966953912807926538919341694442754747336, [-339981043584856, -339981043584856, 339981043584856]),
  (147940336056780871528311672080200809091650548, [-339981043584856, -339981043584856, 861136311594053]),
  (147940336056780871528311672080200809091650548, [-339981043584856, 339981043584856, -861136311594053]),
  (277352966953912807926538919341694442754747336, [-339981043584856, 339981043584856, -339981043584856]),
  (277352966953912807926538919341694442754747336, [-339981043584856, 339981043584856, 339981043584856]),
  (147940336056780871528311672080200809091650548, [-339981043584856, 339981043584856, 861136311594053]),
  (78911515795070144726528011406556084216814114, [-339981043584856, 861136311594053, -861136311594053]),
  (147940336056780871528311672080200809091650548, [-339981043584856, 861136311594053, -339981043584856]),
  (147940336056780871528311672080200809091650548, [-339981043584856, 861136311594053, 339981043584856]),
  (78911515795070144726528011406556084216814114, [-339981043584856, 861136311594053, 861136311594053]),
  (78911515795070144726528011406556084216814114, [339981043584856, -861136311594053, -861136311594053]),
  (147940336056780871528311672080200809091650548, [339981043584856, -861136311594053, -339981043584856]),
  (147940336056780871528311672080200809091650548, [339981043584856, -861136311594053, 339981043584856]),
  (78911515795070144726528011406556084216814114, [339981043584856, -861136311594053, 861136311594053]),
  (147940336056780871528311672080200809091650548, [339981043584856, -339981043584856, -861136311594053]),
  (277352966953912807926538919341694442754747336, [339981043584856, -339981043584856, -339981043584856]),
  (277352966953912807926538919341694442754747336, [339981043584856, -339981043584856, 339981043584856]),
  (147940336056780871528311672080200809091650548, [339981043584856, -339981043584856, 861136311594053]),
  (147940336056780871528311672080200809091650548, [339981043584856, 339981043584856, -861136311594053]),
  (277352966953912807926538919341694442754747336, [339981043584856, 339981043584856, -339981043584856]),
  (277352966953912807926538919341694442754747336, [339981043584856, 339981043584856, 339981043584856]),
  (147940336056780871528311672080200809091650548, [339981043584856, 339981043584856, 861136311594053]),
  (78911515795070144726528011406556084216814114, [339981043584856, 861136311594053, -861136311594053]),
  (147940336056780871528311672080200809091650548, [339981043584856, 861136311594053, -339981043584856]),
  (147940336056780871528311672080200809091650548, [339981043584856, 861136311594053, 339981043584856]),
  (78911515795070144726528011406556084216814114, [339981043584856, 861136311594053, 861136311594053]),
  (42091477490531143308942030201034877319858677, [861136311594053, -861136311594053, -861136311594053]),
  (78911515795070144726528011406556084216814114, [861136311594053, -861136311594053, -339981043584856]),
  (78911515795070144726528011406556084216814114, [861136311594053, -861136311594053, 339981043584856]),
  (42091477490531143308942030201034877319858677, [861136311594053, -861136311594053, 861136311594053]),
  (78911515795070144726528011406556084216814114, [861136311594053, -339981043584856, -861136311594053]),
  (147940336056780871528311672080200809091650548, [861136311594053, -339981043584856, -339981043584856]),
  (147940336056780871528311672080200809091650548, [861136311594053, -339981043584856, 339981043584856]),
  (78911515795070144726528011406556084216814114, [861136311594053, -339981043584856, 861136311594053]),
  (78911515795070144726528011406556084216814114, [861136311594053, 339981043584856, -861136311594053]),
  (147940336056780871528311672080200809091650548, [861136311594053, 339981043584856, -339981043584856]),
  (147940336056780871528311672080200809091650548, [861136311594053, 339981043584856, 339981043584856]),
  (78911515795070144726528011406556084216814114, [861136311594053, 339981043584856, 861136311594053]),
  (42091477490531143308942030201034877319858677, [861136311594053, 861136311594053, -861136311594053]),
  (78911515795070144726528011406556084216814114, [861136311594053, 861136311594053, -339981043584856]),
  (78911515795070144726528011406556084216814114, [861136311594053, 861136311594053, 339981043584856]),
  (42091477490531143308942030201034877319858677, [861136311594053, 861136311594053, 861136311594053])]

theorem C3_7_2_scaled : scaled 1000000000000000000000000000000000000000000000 1000000000000000 C3_7_2T C3_7_2Z = true := by decide +kernel

theorem C3_7_2_inside : PointsInside cubeG C3_7_2 :=
  inside_of_test (box_test cube_body) (by norm_num) 7 64 C3_7_2_scaled (by decide +kernel)

theorem C3_7_2_check : check boxM 1000000000000000000000000000000000000000000000 1000000000000000 10000000000000 3 7 C3_7_2Z = true := by decide +kernel

theorem C3_7_2_integrates : Integrates cubeG C3_7_2 7 (1 / (10000000000000 : ℕ)) :=
  integrates_of_check cube_compact cube_moments (by norm_num) (by norm_num) (by norm_num) 7 64 7
    (by decide) C3_7_2_scaled C3_7_2_check

def C3_9_2Z : List (Int × List Int) := [
  (25976047696548112020806731557682065185311072265625000000000000000000000000, [-906179845938663, -906179845938663, -906179845938663]),
  (52475603057366789849002573958869057115900167968750000000000000000000000000, [-906179845938663, -906179845938663, -538469310105683]),
  (62371498736031771650763558715445332249503567956819379843750000000000000000, [-906179845938663, -906179845938663, 0]),
  (52475603057366789849002573958869057115900167968750000000000000000000000000, [-906179845938663, -906179845938663, 538469310105683]),
  (25976047696548112020806731557682065185311072265625000000000000000000000000, [-906179845938663, -906179845938663, 906179845938663]),
  (52475603057366789849002573958869057115900167968750000000000000000000000000, [-906179845938663, -538469310105683, -906179845938663]),
  (106008771942632873585697244305307134725597039062500000000000000000000000000, [-906179845938663, -538469310105683, -538469310105683]),
  (125999999999999830246220971557916666666669319069463955312500000000000000000, [-906179845938663, -538469310105683, 0]),
  (106008771942632873585697244305307134725597039062500000000000000000000000000, [-906179845938663, -538469310105683, 538469310105683]),
  (52475603057366789849002573958869057115900167968750000000000000000000000000, [-906179845938663, -538469310105683, 906179845938663]),
  (62371498736031771650763558715445332249503567956819379843750000000000000000, [-906179845938663, 0, -906179845938663]),
  (125999999999999830246220971557916666666669319069463955312500000000000000000, [-906179845938663, 0, -538469310105683]),
  (149761191541689837037037032356999801359229629629629666192420533362500000000, [-906179845938663, 0, 0]),
  (125999999999999830246220971557916666666669319069463955312500000000000000000, [-906179845938663, 0, 538469310105683]),
  (62371498736031771650763558715445332249503567956819379843750000000000000000, [-906179845938663, 0, 906179845938663]),
  (52475603057366789849002573958869057115900167968750000000000000000000000000, [-906179845938663, 538469310105683, -906179845938663]),
  (106008771942632873585697244305307134725597039062500000000000000000000000000, [-906179845938663, 538469310105683, -538469310105683]),
  (125999999999999830246220971557916666666669319069463955312500000000000000000, [-906179845938663, 538469310105683, 0]),
  (106008771942632873585697244305307134725597039062500000000000000000000000000, [-906179845938663, 538469310105683, 538469310105683]),
  (52475603057366789849002573958869057115900167968750000000000000000000000000, [-906179845938663, 538469310105683, 906179845938663]),
  (25976047696548112020806731557682065185311072265625000000000000000000000000, [-906179845938663, 906179845938663, -906179845938663]),
  (52475603057366789849002573958869057115900167968750000000000000000000000000, [-906179845938663, 906179845938663, -538469310105683]),
  (62371498736031771650763558715445332249503567956819379843750000000000000000, [-906179845938663, 906179845938663, 0]),
  (52475603057366789849002573958869057115900167968750000000000000000000000000, [-906179845938663, 906179845938663, 538469310105683]),
  (25976047696548112020806731557682065185311072265625000000000000000000000000, [-906179845938663, 906179845938663, 906179845938663]),
  (52475603057366789849002573958869057115900167968750000000000000000000000000, [-538469310105683, -906179845938663, -906179845938663]),
  (106008771942632873585697244305307134725597039062500000000000000000000000000, [-538469310105683, -906179845938663, -538469310105683]),
  (125999999999999830246220971557916666666669319069463955312500000000000000000, [-538469310105683, -906179845938663, 0]),
  (106008771942632873585697244305307134725597039062500000000000000000000000000, [-538469310105683, -906179845938663, 538469310105683]),
  (52475603057366789849002573958869057115900167968750000000000000000000000000, [-538469310105683, -906179845938663, 906179845938663]),
  (106008771942632873585697244305307134725597039062500000000000000000000000000, [-538469310105683, -538469310105683, -906179845938663]),
  (214153989169020503920807119549574488748359171875000000000000000000000000000, [-538469310105683, -538469310105683, -538469310105683]),
  (254539338026656298995340442640600621111273105975583299375000000000000000000, [-538469310105683, -538469310105683, 0]),
  (214153989169020503920807119549574488748359171875000000000000000000000000000, [-538469310105683, -538469310105683, 538469310105683]),
  (106008771942632873585697244305307134725597039062500000000000000000000000000, [-538469310105683, -538469310105683, 906179845938663]),
  (125999999999999830246220971557916666666669319069463955312500000000000000000, [-538469310105683, 0, -906179845938663]),
  (254539338026656298995340442640600621111273105975583299375000000000000000000, [-538469310105683, 0, -538469310105683]),
  (302540591723056039506172830051779348160671604938271678800720756075000000000, [-538469310105683, 0, 0]),
  (254539338026656298995340442640600621111273105975583299375000000000000000000, [-538469310105683, 0, 538469310105683]),
  (125999999999999830246220971557916666666669319069463955312500000000000000000, [-538469310105683, 0, 906179845938663]),
  (106008771942632873585697244305307134725597039062500000000000000000000000000, [-538469310105683, 538469310105683, -906179845938663]),
  (214153989169020503920807119549574488748359171875000000000000000000000000000, [-538469310105683, 538469310105683, -538469310105683]),
  (254539338026656298995340442640600621111273105975583299375000000000000000000, [-538469310105683, 538469310105683, 0]),
  (214153989169020503920807119549574488748359171875000000000000000000000000000, [-538469310105683, 538469310105683, 538469310105683]),
  (106008771942632873585697244305307134725597039062500000000000000000000000000, [-538469310105683, 538469310105683, 906179845938663]),
  (52475603057366789849002573958869057115900167968750000000000000000000000000, [-538469310105683, 906179845938663, -906179845938663]),
  (106008771942632873585697244305307134725597039062500000000000000000000000000, [-538469310105683, 906179845938663, -538469310105683]),
  (125999999999999830246220971557916666666669319069463955312500000000000000000, [-538469310105683, 906179845938663, 0]),
  (106008771942632873585697244305307134725597039062500000000000000000000000000, [-538469310105683, 906179845938663, 538469310105683]),
  (52475603057366789849002573958869057115900167968750000000000000000000000000, [-538469310105683, 906179845938663, 906179845938663]),
  (62371498736031771650763558715445332249503567956819379843750000000000000000, [0, -906179845938663, -906179845938663]),
  (125999999999999830246220971557916666666669319069463955312500000000000000000, [0, -906179845938663, -538469310105683]),
  (149761191541689837037037032356999801359229629629629666192420533362500000000, [0, -906179845938663, 0]),
  (125999999999999830246220971557916666666669319069463955312500000000000000000, [0, -906179845938663, 538469310105683]),
  (62371498736031771650763558715445332249503567956819379843750000000000000000, [0, -906179845938663, 906179845938663]),
  (125999999999999830246220971557916666666669319069463955312500000000000000000, [0, -538469310105683, -906179845938663]),
  (254539338026656298995340442640600621111273105975583299375000000000000000000, [0, -538469310105683, -538469310105683]),
  (302540591723056039506172830051779348160671604938271678800720756075000000000, [0, -538469310105683, 0]),
  (254539338026656298995340442640600621111273105975583299375000000000000000000, [0, -538469310105683, 538469310105683]),
  (125999999999999830246220971557916666666669319069463955312500000000000000000, [0, -538469310105683, 906179845938663]),
  (149761191541689837037037032356999801359229629629629666192420533362500000000, [0, 0, -906179845938663]),
  (302540591723056039506172830051779348160671604938271678800720756075000000000, [0, 0, -538469310105683]),
  (359593964334705075445816169700960219478737997256516038408779149519890260631, [0, 0, 0]),
  (302540591723056039506172830051779348160671604938271678800720756075000000000, [0, 0, 538469310105683]),
  (149761191541689837037037032356999801359229629629629666192420533362500000000, [0, 0, 906179845938663]),
  (125999999999999830246220971557916666666669319069463955312500000000000000000, [0, 538469310105683, -906179845938663]),
  (254539338026656298995340442640600621111273105975583299375000000000000000000, [0, 538469310105683, -538469310105683]),
  (302540591723056039506172830051779348160671604938271678800720756075000000000, [0, 538469310105683, 0]),
  (254539338026656298995340442640600621111273105975583299375000000000000000000, [0, 538469310105683, 538469310105683]),
  (125999999999999830246220971557916666666669319069463955312500000000000000000, [0, 538469310105683, 906179845938663]),
  (62371498736031771650763558715445332249503567956819379843750000000000000000, [0, 906179845938663, -906179845938663]),
  (125999999999999830246220971557916666666669319069463955312500000000000000000, [0, 906179845938663, -538469310105683]),
  (149761191541689837037037032356999801359229629629629666192420533362500000000, [0, 906179845938663, 0]),
  (125999999999999830246220971557916666666669319069463955312500000000000000000, [0, 906179845938663, 538469310105683]),
  (62371498736031771650763558715445332249503567956819379843750000000000000000, [0, 906179845938663, 906179845938663]),
  (52475603057366789849002573958869057115900167968750000000000000000000000000, [538469310105683, -906179845938663, -906179845938663]),
  (106008771942632873585697244305307134725597039062500000000000000000000000000, [538469310105683, -906179845938663, -538469310105683]),
  (125999999999999830246220971557916666666669319069463955312500000000000000000, [538469310105683, -906179845938663, 0]),
  (106008771942632873585697244305307134725597039062500000000000000000000000000, [538469310105683, -906179845938663, 538469310105683]),
  (52475603057366789849002573958869057115900167968750000000000000000000000000, [538469310105683, -906179845938663, 906179845938663]),
  (106008771942632873585697244305307134725597039062500000000000000000000000000, [538469310105683, -538469310105683, -906179845938663]),
  (214153989169020503920807119549574488748359171875000000000000000000000000000, [538469310105683, -538469310105683, -538469310105683]),
  (254539338026656298995340442640600621111273105975583299375000000000000000000, [538469310105683, -538469310105683, 0]),
  (214153989169020503920807119549574488748359171875000000000000000000000000000, [538469310105683, -538469310105683, 538469310105683]),
  (106008771942632873585697244305307134725597039062500000000000000000000000000, [538469310105683, -538469310105683, 906179845938663]),
  (125999999999999830246220971557916666666669319069463955312500000000000000000, [538469310105683, 0, -906179845938663]),
  (254539338026656298995340442640600621111273105975583299375000000000000000000, [538469310105683, 0, -538469310105683]),
  (302540591723056039506172830051779348160671604938271678800720756075000000000, [538469310105683, 0, 0]),
  (254539338026656298995340442640600621111273105975583299375000000000000000000, [538469310105683, 0, 538469310105683]),
  (125999999999999830246220971557916666666669319069463955312500000000000000000, [538469310105683, 0, 906179845938663]),
  (106008771942632873585697244305307134725597039062500000000000000000000000000, [538469310105683, 538469310105683, -906179845938663]),
  (214153989169020503920807119549574488748359171875000000000000000000000000000, [538469310105683, 538469310105683, -538469310105683]),
  (254539338026656298995340442640600621111273105975583299375000000000000000000, [538469310105683, 538469310105683, 0]),
  (214153989169020503920807119549574488748359171875000000000000000000000000000, [538469310105683, 538469310105683, 538469310105683]),
  (106008771942632873585697244305307134725597039062500000000000000000000000000, [538469310105683, 538469310105683, 906179845938663]),
  (52475603057366789849002573958869057115900167968750000000000000000000000000, [538469310105683, 906179845938663, -906179845938663]),
  (106008771942632873585697244305307134725597039062500000000000000000000000000, [538469310105683, 906179845938663, -538469310105683]),
  (125999999999999830246220971557916666666669319069463955312500000000000000000, [538469310105683, 906179845938663, 0]),
  (106008771942632873585697244305307134725597039062500000000000000000000000000, [538469310105683, 906179845938663, 538469310105683]),
  (52475603057366789849002573958869057115900167968750000000000000000000000000, [538469310105683, 906179845938663, 906179845938663]),
  (25976047696548112020806731557682065185311072265625000000000000000000000000, [906179845938663, -906179845938663, -906179845938663]),
  (52475603057366789849002573958869057115900167968750000000000000000000000000, [906179845938663, -906179845938663, -538469310105683]),
  (62371498736031771650763558715445332249503567956819379843750000000000000000, [906179845938663, -906179845938663, 0]),
  (52475603057366789849002573958869057115900167968750000000000000000000000000, [906179845938663, -906179845938663, 538469310105683]),
  (25976047696548112020806731557682065185311072265625000000000000000000000000, [906179845938663, -906179845938663, 906179845938663]),
  (52475603057366789849002573958869057115900167968750000000000000000000000000, [906179845938663, -538469310105683, -906179845938663]),
  (106008771942632873585697244305307134725597039062500000000000000000000000000, [906179845938663, -538469310105683, -538469310105683]),
  (125999999999999830246220971557916666666669319069463955312500000000000000000, [906179845938663, -538469310105683, 0]),
  (106008771942632873585697244305307134725597039062500000000000000000000000000, [906179845938663, -538469310105683, 538469310105683]),
  (52475603057366789849002573958869057115900167968750000000000000000000000000, [906179845938663, -538469310105683, 906179845938663]),
  (62371498736031771650763558715445332249503567956819379843750000000000000000, [906179845938663, 0, -906179845938663]),
  (125999999999999830246220971557916666666669319069463955312500000000000000000, [906179845938663, 0, -538469310105683]),
  (149761191541689837037037032356999801359229629629629666192420533362500000000, [906179845938663, 0, 0]),
  (125999999999999830246220971557916666666669319069463955312500000000000000000, [906179845938663, 0, 538469310105683]),
  (62371498736031771650763558715445332249503567956819379843750000000000000000, [906179845938663, 0, 906179845938663]),
  (52475603057366789849002573958869057115900167968750000000000000000000000000, [906179845938663, 538469310105683, -906179845938663]),
  (106008771942632873585697244305307134725597039062500000000000000000000000000, [906179845938663, 538469310105683, -538469310105683]),
  (125999999999999830246220971557916666666669319069463955312500000000000000000, [906179845938663, 538469310105683, 0]),
  (106008771942632873585697244305307134725597039062500000000000000000000000000, [906179845938663, 538469310105683, 538469310105683]),
  (52475603057366789849002573958869057115900167968750000000000000000000000000, [906179845938663, 538469310105683, 906179845938663]),
  (25976047696548112020806731557682065185311072265625000000000000000000000000, [906179845938663, 906179845938663, -906179845938663]),
  (52475603057366789849002573958869057115900167968750000000000000000000000000, [906179845938663, 906179845938663, -538469310105683]),
  (62371498736031771650763558715445332249503567956819379843750000000000000000, [906179845938663, 906179845938663, 0]),
  (52475603057366789849002573958869057115900167968750000000000000000000000000, [906179845938663, 906179845938663, 538469310105683]),
  (25976047696548112020806731557682065185311072265625000000000000000000000000, [906179845938663, 906179845938663, 906179845938663])]

theorem C3_9_2_scaled : scaled 1953125000000000000000000000000000000000000000000000000000000000000000000000 1000000000000000 C3_9_2T C3_9_2Z = true := by decide +kernel

theorem C3_9_2_inside : PointsInside cubeG C3_9_2 :=
  inside_of_test (box_test cube_body) (by norm_num) 9 125 C3_9_2_scaled (by decide +kernel)

theorem C3_9_2_check : check boxM 1953125000000000000000000000000000000000000000000000000000000000000000000000 1000000000000000 10000000000000 3 9 C3_9_2Z = true := by decide +kernel

theorem C3_9_2_integrates : Integrates cubeG C3_9_2 9 (1 / (10000000000000 : ℕ)) :=
  integrates_of_check cube_compact cube_moments (by norm_num) (by norm_num) (by norm_num) 9 125 9
    (by decide) C3_9_2_scaled C3_9_2_check

def C3_11_2Z : List (Int × List Int) := [
  (5028730495636477181441535977220045174213000, [-233117378550788, -233117378550788, -233117378550788]),
  (10589103162353972873210957899135807251868200, [-233117378550788, -233117378550788, -165302346616566]),
  (13734248030989800000315706043364740524029900, [-233117378550788, -233117378550788, -59654796520799]),
  (13734248030989800000315706043364740524029900, [-233117378550788, -233117378550788, 59654796520799]),
  (10589103162353972873210957899135807251868200, [-233117378550788, -233117378550788, 165302346616566]),
  (5028730495636477181441535977220045174213000, [-233117378550788, -233117378550788, 233117378550788]),
  (10589103162353972873210957899135807251868200, [-233117378550788, -165302346616566, -233117378550788]),
  (22297696382868681420494113267184736953073480, [-233117378550788, -165302346616566, -165302346616566]),
  (28920493827160383947560041910579407236572860, [-233117378550788, -165302346616566, -59654796520799]),
  (28920493827160383947560041910579407236572860, [-233117378550788, -165302346616566, 59654796520799]),
  (22297696382868681420494113267184736953073480, [-233117378550788, -165302346616566, 165302346616566]),
  (10589103162353972873210957899135807251868200, [-233117378550788, -165302346616566, 233117378550788]),
  (13734248030989800000315706043364740524029900, [-233117378550788, -59654796520799, -233117378550788]),
  (28920493827160383947560041910579407236572860, [-233117378550788, -59654796520799, -165302346616566]),
  (37510375459656185106906180709606632340150770, [-233117378550788, -59654796520799, -59654796520799]),
  (37510375459656185106906180709606632340150770, [-233117378550788, -59654796520799, 59654796520799]),
  (28920493827160383947560041910579407236572860, [-233117378550788, -59654796520799, 165302346616566]),
  (13734248030989800000315706043364740524029900, [-233117378550788, -59654796520799, 233117378550788]),
  (13734248030989800000315706043364740524029900, [-233117378550788, 59654796520799, -233117378550788]),
  (28920493827160383947560041910579407236572860, [-233117378550788, 59654796520799, -165302346616566]),
  (37510375459656185106906180709606632340150770, [-233117378550788, 59654796520799, -59654796520799]),
  (37510375459656185106906180709606632340150770, [-233117378550788, 59654796520799, 59654796520799]),
  (28920493827160383947560041910579407236572860, [-233117378550788, 59654796520799, 165302346616566]),
  (13734248030989800000315706043364740524029900, [-233117378550788, 59654796520799, 233117378550788]),
  (10589103162353972873210957899135807251868200, [-233117378550788, 165302346616566, -233117378550788]),
  (22297696382868681420494113267184736953073480, [-233117378550788, 165302346616566, -165302346616566]),
  (28920493827160383947560041910579407236572860, [-233117378550788, 165302346616566, -59654796520799]),
  (28920493827160383947560041910579407236572860, [-233117378550788, 165302346616566, 59654796520799]),
  (22297696382868681420494113267184736953073480, [-233117378550788, 165302346616566, 165302346616566]),
  (10589103162353972873210957899135807251868200, [-233117378550788, 165302346616566, 233117378550788]),
  (5028730495636477181441535977220045174213000, [-233117378550788, 233117378550788, -233117378550788]),
  (10589103162353972873210957899135807251868200, [-233117378550788, 233117378550788, -165302346616566]),
  (13734248030989800000315706043364740524029900, [-233117378550788, 233117378550788, -59654796520799]),
  (13734248030989800000315706043364740524029900, [-233117378550788, 233117378550788, 59654796520799]),
  (10589103162353972873210957899135807251868200, [-233117378550788, 233117378550788, 165302346616566]),
  (5028730495636477181441535977220045174213000, [-233117378550788, 233117378550788, 233117378550788]),
  (10589103162353972873210957899135807251868200, [-165302346616566, -233117378550788, -233117378550788]),
  (22297696382868681420494113267184736953073480, [-165302346616566, -233117378550788, -165302346616566]),
  (28920493827160383947560041910579407236572860, [-165302346616566, -233117378550788, -59654796520799]),
  (28920493827160383947560041910579407236572860, [-165302346616566, -233117378550788, 59654796520799]),
  (22297696382868681420494113267184736953073480, [-165302346616566, -233117378550788, 165302346616566]),
  (10589103162353972873210957899135807251868200, [-165302346616566, -233117378550788, 233117378550788]),
  (22297696382868681420494113267184736953073480, [-165302346616566, -165302346616566, -233117378550788]),
  (46952726435811740142239124899881049236964072, [-165302346616566, -165302346616566, -165302346616566]),
  (60898489769486458492819440709924009344695404, [-165302346616566, -165302346616566, -59654796520799]),
  (60898489769486458492819440709924009344695404, [-165302346616566, -165302346616566, 59654796520799]),
  (46952726435811740142239124899881049236964072, [-165302346616566, -165302346616566, 165302346616566]),
  (22297696382868681420494113267184736953073480, [-165302346616566, -165302346616566, 233117378550788]),
  (28920493827160383947560041910579407236572860, [-165302346616566, -59654796520799, -233117378550788]),
  (60898489769486458492819440709924009344695404, [-165302346616566, -59654796520799, -165302346616566]),
  (78986383490940517739656629149967598015532378, [-165302346616566, -59654796520799, -59654796520799]),
  (78986383490940517739656629149967598015532378, [-165302346616566, -59654796520799, 59654796520799]),
  (60898489769486458492819440709924009344695404, [-165302346616566, -59654796520799, 165302346616566]),
  (28920493827160383947560041910579407236572860, [-165302346616566, -59654796520799, 233117378550788]),
  (28920493827160383947560041910579407236572860, [-165302346616566, 59654796520799, -233117378550788]),
  (60898489769486458492819440709924009344695404, [-165302346616566, 59654796520799, -165302346616566]),
  (78986383490940517739656629149967598015532378, [-165302346616566, 59654796520799, -59654796520799]),
  (78986383490940517739656629149967598015532378, [-165302346616566, 59654796520799, 59654796520799]),
  (60898489769486458492819440709924009344695404, [-165302346616566, 59654796520799, 165302346616566]),
  (28920493827160383947560041910579407236572860, [-165302346616566, 59654796520799, 233117378550788]),
  (22297696382868681420494113267184736953073480, [-165302346616566, 165302346616566, -233117378550788]),
  (46952726435811740142239124899881049236964072, [-165302346616566, 165302346616566, -165302346616566]),
  (60898489769486458492819440709924009344695404, [-165302346616566, 165302346616566, -59654796520799]),
  (60898489769486458492819440709924009344695404, [-165302346616566, 165302346616566, 59654796520799]),
  (46952726435811740142239124899881049236964072, [-165302346616566, 165302346616566, 165302346616566]),
  (22297696382868681420494113267184736953073480, [-165302346616566, 165302346616566, 233117378550788]),
  (10589103162353972873210957899135807251868200, [-165302346616566, 233117378550788, -233117378550788]),
  (22297696382868681420494113267184736953073480, [-165302346616566, 233117378550788, -165302346616566]),
  (28920493827160383947560041910579407236572860, [-165302346616566, 233117378550788, -59654796520799]),
  (28920493827160383947560041910579407236572860, [-165302346616566, 233117378550788, 59654796520799]),
  (22297696382868681420494113267184736953073480, [-165302346616566, 233117378550788, 165302346616566]),
  (10589103162353972873210957899135807251868200, [-165302346616566, 233117378550788, 233117378550788]),
  (13734248030989800000315706043364740524029900, [-59654796520799, -233117378550788, -233117378550788]),
  (28920493827160383947560041910579407236572860, [-59654796520799, -233117378550788, -165302346616566]),
  (37510375459656185106906180709606632340150770, [-59654796520799, -233117378550788, -59654796520799]),
  (37510375459656185106906180709606632340150770, [-59654796520799, -233117378550788, 59654796520799]),
  (28920493827160383947560041910579407236572860, [-59654796520799, -233117378550788, 165302346616566]),
  (13734248030989800000315706043364740524029900, [-59654796520799, -233117378550788, 233117378550788]),
  (28920493827160383947560041910579407236572860, [-59654796520799, -165302346616566, -233117378550788]),
  (60898489769486458492819440709924009344695404, [-59654796520799, -165302346616566, -165302346616566]),
  (78986383490940517739656629149967598015532378, [-59654796520799, -165302346616566, -59654796520799]),
  (78986383490940517739656629149967598015532378, [-59654796520799, -165302346616566, 59654796520799]),
  (60898489769486458492819440709924009344695404, [-59654796520799, -165302346616566, 165302346616566]),
  (28920493827160383947560041910579407236572860, [-59654796520799, -165302346616566, 233117378550788]),
  (37510375459656185106906180709606632340150770, [-59654796520799, -59654796520799, -233117378550788]),
  (78986383490940517739656629149967598015532378, [-59654796520799, -59654796520799, -165302346616566]),
  (102446691216699632090750004324871888881335371, [-59654796520799, -59654796520799, -59654796520799]),
  (102446691216699632090750004324871888881335371, [-59654796520799, -59654796520799, 59654796520799]),
  (78986383490940517739656629149967598015532378, [-59654796520799, -59654796520799, 165302346616566]),
  (37510375459656185106906180709606632340150770, [-59654796520799, -59654796520799, 233117378550788]),
  (37510375459656185106906180709606632340150770, [-59654796520799, 59654796520799, -233117378550788]),
  (78986383490940517739656629149967598015532378, [-59654796520799, 59654796520799, -165302346616566]),
  (102446691216699632090750004324871888881335371, [-59654796520799, 59654796520799, -59654796520799]),
  (102446691216699632090750004324871888881335371, [-59654796520799, 59654796520799, 59654796520799]),
  (78986383490940517739656629149967598015532378, [-59654796520799, 59654796520799, 165302346616566]),
  (37510375459656185106906180709606632340150770, [-59654796520799, 59654796520799, 233117378550788]),
  (28920493827160383947560041910579407236572860, [-59654796520799, 165302346616566, -233117378550788]),
  (60898489769486458492819440709924009344695404, [-59654796520799, 165302346616566, -165302346616566]),
  (78986383490940517739656629149967598015532378, [-59654796520799, 165302346616566, -59654796520799]),
  (78986383490940517739656629149967598015532378, [-59654796520799, 165302346616566, 59654796520799]),
  (60898489769486458492819440709924009344695404, [-59654796520799, 165302346616566, 165302346616566]),
  (28920493827160383947560041910579407236572860, [-59654796520799, 165302346616566, 233117378550788]),
  (13734248030989800000315706043364740524029900, [-59654796520799, 233117378550788, -233117378550788]),
  (28920493827160383947560041910579407236572860, [-59654796520799, 233117378550788, -165302346616566]),
  (37510375459656185106906180709606632340150770, [-59654796520799, 233117378550788, -59654796520799]),
  (37510375459656185106906180709606632340150770, [-59654796520799, 233117378550788, 59654796520799]),
  (28920493827160383947560041910579407236572860, [-59654796520799, 233117378550788, 165302346616566]),
  (13734248030989800000315706043364740524029900, [-59654796520799, 233117378550788, 233117378550788]),
  (13734248030989800000315706043364740524029900, [59654796520799, -233117378550788, -233117378550788]),
  (28920493827160383947560041910579407236572860, [59654796520799, -233117378550788, -165302346616566]),
  (37510375459656185106906180709606632340150770, [59654796520799, -233117378550788, -59654796520799]),
  (37510375459656185106906180709606632340150770, [59654796520799, -233117378550788, 59654796520799]),
  (28920493827160383947560041910579407236572860, [59654796520799, -233117378550788, 165302346616566]),
  (13734248030989800000315706043364740524029900, [59654796520799, -233117378550788, 233117378550788]),
  (28920493827160383947560041910579407236572860, [59654796520799, -165302346616566, -233117378550788]),
  (60898489769486458492819440709924009344695404, [59654796520799, -165302346616566, -165302346616566]),
  (78986383490940517739656629149967598015532378, [59654796520799, -165302346616566, -59654796520799]),
  (78986383490940517739656629149967598015532378, [59654796520799, -165302346616566, 59654796520799]),
  (60898489769486458492819440709924009344695404, [59654796520799, -165302346616566, 165302346616566]),
  (28920493827160383947560041910579407236572860, [59654796520799, -165302346616566, 233117378550788]),
  (37510375459656185106906180709606632340150770, [59654796520799, -59654796520799, -233117378550788]),
  (78986383490940517739656629149967598015532378, [59654796520799, -59654796520799, -165302346616566]),
  (102446691216699632090750004324871888881335371, [59654796520799, -59654796520799, -59654796520799]),
  (102446691216699632090750004324871888881335371, [59654796520799, -59654796520799, 59654796520799]),
  (78986383490940517739656629149967598015532378, [59654796520799, -59654796520799, 165302346616566]),
  (37510375459656185106906180709606632340150770, [59654796520799, -59654796520799, 233117378550788]),
  (37510375459656185106906180709606632340150770, [59654796520799, 59654796520799, -233117378550788]),
  (78986383490940517739656629149967598015532378, [59654796520799, 59654796520799, -165302346616566]),
  (102446691216699632090750004324871888881335371, [59654796520799, 59654796520799, -59654796520799]),
  (102446691216699632090750004324871888881335371, [59654796520799, 59654796520799, 59654796520799]),
  (78986383490940517739656629149967598015532378, [59654796520799, 59654796520799, 165302346616566]),
  (37510375459656185106906180709606632340150770, [59654796520799, 59654796520799, 233117378550788]),
  (28920493827160383947560041910579407236572860, [59654796520799, 165302346616566, -233117378550788]),
  (60898489769486458492819440709924009344695404, [59654796520799, 165302346616566, -165302346616566]),
  (78986383490940517739656629149967598015532378, [59654796520799, 165302346616566, -59654796520799]),
  (78986383490940517739656629149967598015532378, [59654796520799, 165302346616566, 59654796520799]),
  (60898489769486458492819440709924009344695404, [59654796520799, 165302346616566, 165302346616566]),
  (28920493827160383947560041910579407236572860, [59654796520799, 165302346616566, 233117378550788]),
  (13734248030989800000315706043364740524029900, [59654796520799, 233117378550788, -233117378550788]),
  (28920493827160383947560041910579407236572860, [59654796520799, 233117378550788, -165302346616566]),
  (37510375459656185106906180709606632340150770, [59654796520799, 233117378550788, -59654796520799]),
  (37510375459656185106906180709606632340150770, [59654796520799, 233117378550788, 59654796520799]),
  (28920493827160383947560041910579407236572860, [59654796520799, 233117378550788, 165302346616566]),
  (13734248030989800000315706043364740524029900, [59654796520799, 233117378550788, 233117378550788]),
  (10589103162353972873210957899135807251868200, [165302346616566, -233117378550788, -233117378550788]),
  (22297696382868681420494113267184736953073480, [165302346616566, -233117378550788, -165302346616566]),
  (28920493827160383947560041910579407236572860, [165302346616566, -233117378550788, -59654796520799]),
  (28920493827160383947560041910579407236572860, [165302346616566, -233117378550788, 59654796520799]),
  (22297696382868681420494113267184736953073480, [165302346616566, -233117378550788, 165302346616566]),
  (10589103162353972873210957899135807251868200, [165302346616566, -233117378550788, 233117378550788]),
  (22297696382868681420494113267184736953073480, [165302346616566, -165302346616566, -233117378550788]),
  (46952726435811740142239124899881049236964072, [165302346616566, -165302346616566, -165302346616566]),
  (60898489769486458492819440709924009344695404, [165302346616566, -165302346616566, -59654796520799]),
  (60898489769486458492819440709924009344695404, [165302346616566, -165302346616566, 59654796520799]),
  (46952726435811740142239124899881049236964072, [165302346616566, -165302346616566, 165302346616566]),
  (22297696382868681420494113267184736953073480, [165302346616566, -165302346616566, 233117378550788]),
  (28920493827160383947560041910579407236572860, [165302346616566, -59654796520799, -233117378550788]),
  (60898489769486458492819440709924009344695404, [165302346616566, -59654796520799, -165302346616566]),
  (78986383490940517739656629149967598015532378, [165302346616566, -59654796520799, -59654796520799]),
  (78986383490940517739656629149967598015532378, [165302346616566, -59654796520799, 59654796520799]),
  (60898489769486458492819440709924009344695404, [165302346616566, -59654796520799, 165302346616566]),
  (28920493827160383947560041910579407236572860, [165302346616566, -59654796520799, 233117378550788]),
  (28920493827160383947560041910579407236572860, [165302346616566, 59654796520799, -233117378550788]),
  (60898489769486458492819440709924009344695404, [165302346616566, 59654796520799, -165302346616566]),
  (78986383490940517739656629149967598015532378, [165302346616566, 59654796520799, -59654796520799]),
  (78986383490940517739656629149967598015532378, [165302346616566, 59654796520799, 59654796520799]),
  (60898489769486458492819440709924009344695404, [165302346616566, 59654796520799, 165302346616566]),
  (28920493827160383947560041910579407236572860, [165302346616566, 59654796520799, 233117378550788]),
  (22297696382868681420494113267184736953073480, [165302346616566, 165302346616566, -233117378550788]),
  (46952726435811740142239124899881049236964072, [165302346616566, 165302346616566, -165302346616566]),
  (60898489769486458492819440709924009344695404, [165302346616566, 165302346616566, -59654796520799]),
  (60898489769486458492819440709924009344695404, [165302346616566, 165302346616566, 59654796520799]),
  (46952726435811740142239124899881049236964072, [165302346616566, 165302346616566, 165302346616566]),
  (22297696382868681420494113267184736953073480, [165302346616566, 165302346616566, 233117378550788]),
  (10589103162353972873210957899135807251868200, [165302346616566, 233117378550788, -233117378550788]),
  (22297696382868681420494113267184736953073480, [165302346616566, 233117378550788, -165302346616566]),
  (28920493827160383947560041910579407236572860, [165302346616566, 233117378550788, -59654796520799]),
  (28920493827160383947560041910579407236572860, [165302346616566, 233117378550788, 59654796520799]),
  (22297696382868681420494113267184736953073480, [165302346616566, 233117378550788, 165302346616566]),
  (10589103162353972873210957899135807251868200, [165302346616566, 233117378550788, 233117378550788]),
  (5028730495636477181441535977220045174213000, [233117378550788, -233117378550788, -233117378550788]),
  (10589103162353972873210957899135807251868200, [233117378550788, -233117378550788, -165302346616566]),
  (13734248030989800000315706043364740524029900, [233117378550788, -233117378550788, -59654796520799]),
  (13734248030989800000315706043364740524029900, [233117378550788, -233117378550788, 59654796520799]),
  (10589103162353972873210957899135807251868200, [233117378550788, -233117378550788, 165302346616566]),
  (5028730495636477181441535977220045174213000, [233117378550788, -233117378550788, 233117378550788]),
  (10589103162353972873210957899135807251868200, [233117378550788, -165302346616566, -233117378550788]),
  (22297696382868681420494113267184736953073480, [233117378550788, -165302346616566, -165302346616566]),
  (28920493827160383947560041910579407236572860, [233117378550788, -165302346616566, -59654796520799]),
  (28920493827160383947560041910579407236572860, [233117378550788, -165302346616566, 59654796520799]),
  (22297696382868681420494113267184736953073480, [233117378550788, -165302346616566, 165302346616566]),
  (10589103162353972873210957899135807251868200, [233117378550788, -165302346616566, 233117378550788]),
  (13734248030989800000315706043364740524029900, [233117378550788, -59654796520799, -233117378550788]),
  (28920493827160383947560041910579407236572860, [233117378550788, -59654796520799, -165302346616566]),
  (37510375459656185106906180709606632340150770, [233117378550788, -59654796520799, -59654796520799]),
  (37510375459656185106906180709606632340150770, [233117378550788, -59654796520799, 59654796520799]),
  (28920493827160383947560041910579407236572860, [233117378550788, -59654796520799, 165302346616566]),
  (13734248030989800000315706043364740524029900, [233117378550788, -59654796520799, 233117378550788]),
  (13734248030989800000315706043364740524029900, [233117378550788, 59654796520799, -233117378550788]),
  (28920493827160383947560041910579407236572860, [233117378550788, 59654796520799, -165302346616566]),
  (37510375459656185106906180709606632340150770, [233117378550788, 59654796520799, -59654796520799]),
  (37510375459656185106906180709606632340150770, [233117378550788, 59654796520799, 59654796520799]),
  (28920493827160383947560041910579407236572860, [233117378550788, 59654796520799, 165302346616566]),
  (13734248030989800000315706043364740524029900, [233117378550788, 59654796520799, 233117378550788]),
  (10589103162353972873210957899135807251868200, [233117378550788, 165302346616566, -233117378550788]),
  (22297696382868681420494113267184736953073480, [233117378550788, 165302346616566, -165302346616566]),
  (28920493827160383947560041910579407236572860, [233117378550788, 165302346616566, -59654796520799]),
  (28920493827160383947560041910579407236572860, [233117378550788, 165302346616566, 59654796520799]),
  (22297696382868681420494113267184736953073480, [233117378550788, 165302346616566, 165302346616566]),
  (10589103162353972873210957899135807251868200, [233117378550788, 165302346616566, 233117378550788]),
  (5028730495636477181441535977220045174213000, [233117378550788, 233117378550788, -233117378550788]),
  (10589103162353972873210957899135807251868200, [233117378550788, 233117378550788, -165302346616566]),
  (13734248030989800000315706043364740524029900, [233117378550788, 233117378550788, -59654796520799]),
  (13734248030989800000315706043364740524029900, [233117378550788, 233117378550788, 59654796520799]),
  (10589103162353972873210957899135807251868200, [233117378550788, 233117378550788, 165302346616566]),
  (5028730495636477181441535977220045174213000, [233117378550788, 233117378550788, 233117378550788])]

theorem C3_11_2_scaled : scaled 1000000000000000000000000000000000000000000000 250000000000000 C3_11_2T C3_11_2Z = true := by decide +kernel

theorem C3_11_2_inside : PointsInside cubeG C3_11_2 :=
  inside_of_test (box_test cube_body) (by norm_num) 11 216 C3_11_2_scaled (by decide +kernel)

theorem C3_11_2_check : check boxM 1000000000000000000000000000000000000000000000 250000000000000 10000000000000 3 11 C3_11_2Z = true := by decide +kernel

theorem C3_11_2_integrates : Integrates cubeG C3_11_2 11 (1 / (10000000000000 : ℕ)) :=
  integrates_of_check cube_compact cube_moments (by norm_num) (by norm_num) (by norm_num) 11 216 11
    (by decide) C3_11_2_scaled C3_11_2_check

end Verif.Quadrature
