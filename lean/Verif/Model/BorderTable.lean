/-
GENERATED by tools/mkborders.py from /repo/radolan2png/borders.go:11-12502: the table `border`, each pair in
millionths of a degree (every literal there has six decimals). The comment in borders.go calls the pairs {longitude,
latitude}; they are latitude, longitude.
-/
namespace Radolan.Cli

/-- borders.go:11-456 -/
def border0 : List (Nat × Nat) := [
(47270111, 10178342), (47270231, 10174584), (47270519, 10232349), (47270913, 10232624), (47272033, 10184929),
(47272318, 10238140), (47272588, 10187293), (47272609, 10192571), (47272630, 10228414), (47272905, 10173700),
(47275216, 10240742), (47275303, 10207622), (47275307, 10223423), (47275387, 10211807), (47275766, 10175198),
(47277811, 10242004), (47278946, 10172178), (47279251, 10249667), (47281231, 10257242), (47282050, 10175929),
(47283431, 10260873), (47285147, 10265945), (47286927, 10175422), (47287465, 10280595), (47288188, 10175044),
(47288228, 10281922), (47288838, 10282816), (47289229, 10174863), (47289417, 10175162), (47293452, 10290369),
(47293885, 10185098), (47294394, 10292090), (47294658, 10190294), (47294702, 10178288), (47295111, 10191808),
(47298468, 10199803), (47298589, 10300849), (47299980, 10303480), (47300228, 10202600), (47302061, 10307010),
(47303860, 10324417), (47304226, 10208058), (47305412, 10323940), (47305569, 10313494), (47305718, 10323087),
(47305864, 10209637), (47306133, 10332144), (47311328, 10339635), (47311342, 10213428), (47312067, 10339887),
(47316464, 10347847), (47316615, 10347953), (47317022, 10211225), (47320651, 10208020), (47322181, 10346256),
(47322598, 10206325), (47324055, 10348026), (47326460, 10199509), (47327630, 10351803), (47328178, 10200987),
(47333143, 10356314), (47333275, 10356476), (47333904, 10207559), (47335013, 10356302), (47338873, 10360009),
(47339786, 10206667), (47341289, 10364595), (47341471, 10208589), (47344310, 10367948), (47345172, 10212570),
(47349343, 10216683), (47350355, 10217428), (47352208, 10378547), (47353455, 10381418), (47354781, 10099816),
(47355461, 10384332), (47355957, 10219050), (47357223, 10102141), (47359856, 10097636), (47360943, 10386713),
(47361574, 10225275), (47362808, 10107361), (47366617, 10388865), (47366935, 10111219), (47367103, 10149837),
(47367174, 10230300), (47367176, 10142256), (47367323, 10094383), (47367348, 10152207), (47367523, 10139865),
(47368136, 10159823), (47368680, 10112851), (47369492, 10134060), (47369839, 10233470), (47369940, 10167620),
(47370563, 10389868), (47371843, 10092418), (47372191, 10392062), (47372865, 10236627), (47373006, 10125609),
(47373066, 10169305), (47373071, 10091886), (47376998, 10397932), (47377128, 10406174), (47377546, 10408160),
(47377582, 10401043), (47377969, 10232823), (47378604, 10089478), (47378671, 10231890), (47378774, 10169035),
(47379066, 10414539), (47380363, 10436765), (47380390, 10212591), (47380600, 10233275), (47382129, 10217054),
(47382601, 10203333), (47383005, 10432435), (47383192, 10418803), (47383280, 10200049), (47383388, 10429592),
(47383775, 10233731), (47383903, 10219745), (47383949, 10199670), (47384714, 10233114), (47384828, 10169320),
(47385192, 10086620), (47385265, 10176536), (47389067, 10430633), (47389392, 10191969), (47389454, 10194230),
(47389471, 10189964), (47389728, 10084648), (47389859, 10181386), (47393348, 11031390), (47393799, 11032678),
(47393907, 11048602), (47394076, 11049185), (47394129, 11004972), (47394273, 10429939), (47394282, 11100271),
(47394346, 11049844), (47394379, 11046025), (47394402, 11008729), (47394555, 11034053), (47394604, 11098477),
(47394607, 11026717), (47394696, 10996674), (47394806, 11010111), (47395045, 10995674), (47395108, 11228312),
(47395239, 11107084), (47395359, 11058377), (47395462, 10083810), (47395546, 11115152), (47395561, 11069111),
(47395642, 11089647), (47395651, 11078190), (47395662, 10988294), (47395998, 11230630), (47396214, 11016221),
(47396912, 10983207), (47396914, 10431111), (47397016, 10084961), (47397346, 11222307), (47397565, 11269885),
(47397613, 11222630), (47397630, 11232803), (47397959, 11272494), (47398081, 11243105), (47398204, 11259480),
(47398445, 11249621), (47398514, 10975035), (47398979, 11122803), (47399383, 11123484), (47399801, 10433878),
(47400500, 11280585), (47400860, 10970387), (47400935, 10082634), (47402152, 10431097), (47402290, 11284036),
(47403101, 11227136), (47404380, 10076423), (47404567, 11122563), (47405577, 10436110), (47406388, 10072783),
(47406468, 10970554), (47406759, 11288698), (47407556, 11123776), (47407737, 11230934), (47408639, 11232013),
(47408763, 11290115), (47410122, 11126559), (47410917, 10436122), (47411988, 10072098), (47412036, 10968870),
(47412420, 11132143), (47413332, 11291212), (47413697, 10439596), (47413972, 11140435), (47414328, 11237329),
(47414504, 10085375), (47414552, 10076787), (47415444, 11142376), (47415516, 10448052), (47415675, 11239733),
(47416838, 10093378), (47417571, 10094552), (47417586, 10972305), (47417744, 10452325), (47417839, 10976831),
(47418009, 11148765), (47418860, 11292919), (47419144, 10456066), (47419790, 11241028), (47420563, 10984204),
(47420887, 11155234), (47421257, 11157132), (47422009, 10456772), (47422108, 11165491), (47423128, 10096914),
(47423716, 11173844), (47424517, 11291020), (47424787, 11248255), (47425169, 11248998), (47426122, 11179551),
(47426340, 11182072), (47426678, 10101823), (47426895, 11190506), (47427579, 10458494), (47427718, 11198587),
(47428497, 11297700), (47428685, 10105527), (47429614, 10464465), (47429989, 11298883), (47430018, 10983612),
(47430089, 11305955), (47430506, 11221314), (47430857, 11251279), (47430885, 11314191), (47430909, 11225639),
(47431076, 11226930), (47431358, 11202752), (47431434, 10474191), (47431457, 11221709), (47431549, 11240317),
(47432081, 11234781), (47432642, 11213175), (47433103, 10475829), (47433121, 10101388), (47434897, 10976975),
(47435218, 11319823), (47435637, 10098991), (47435990, 10975488), (47437251, 11325055), (47438737, 10472891),
(47438886, 10472751), (47438926, 11330940), (47439851, 10094870), (47440513, 10969877), (47440625, 11330715),
(47442271, 10967843), (47442759, 10093251), (47444206, 10471172), (47444348, 11331123), (47444379, 11420331),
(47444727, 11421130), (47444819, 11364538), (47445228, 11364077), (47445444, 10093218), (47445573, 11371256),
(47445583, 10093262), (47445697, 11363591), (47445851, 11407433), (47446016, 10963515), (47446143, 11333451),
(47446407, 11372469), (47446516, 11388760), (47446574, 11389112), (47446616, 11405461), (47447513, 11350073),
(47448683, 11347533), (47449772, 10468336), (47450097, 10959351), (47451118, 10094528), (47451547, 10958172),
(47453125, 11414604), (47453379, 10093253), (47454653, 11413341), (47455354, 10080237), (47455420, 10466992),
(47455600, 10073495), (47456236, 11411816), (47456278, 10951208), (47456605, 10082622), (47456649, 10091749),
(47456717, 10070288), (47457293, 10949269), (47460878, 10068386), (47460946, 10467576), (47461430, 10941295),
(47461683, 11410569), (47462218, 10066305), (47462798, 10939261), (47463396, 13003667), (47464800, 13000480),
(47465294, 10057992), (47465821, 13008427), (47465837, 12999727), (47466143, 11394202), (47466226, 10935476),
(47466599, 10467591), (47466784, 11406177), (47467127, 11389646), (47467600, 11389280), (47467833, 10053248),
(47468495, 10931852), (47468546, 13010324), (47469833, 10051985), (47470078, 13013311), (47470809, 12994960),
(47472094, 10467704), (47473243, 11384269), (47473447, 10053438), (47473967, 10930146), (47474145, 12971371),
(47474451, 12968151), (47474858, 13018064), (47475681, 13018327), (47477123, 12972604), (47477357, 12994572),
(47477379, 10051959), (47477580, 12989432), (47477700, 10466724), (47477871, 12957235), (47478782, 11387712),
(47478947, 10937109), (47479178, 10881460), (47479430, 10464968), (47479597, 10937969), (47479633, 12951854),
(47479679, 10050020), (47479766, 10877802), (47479865, 10886252), (47479952, 10886335), (47480098, 10877366),
(47481088, 13024456), (47481098, 11390234), (47481777, 10002250), (47481789, 10003164), (47481943, 12984329),
(47481974, 10010817), (47482259, 10928963), (47482335, 10927593), (47482642, 12973616), (47482704, 10894699),
(47482776, 12980455), (47482787, 10456757), (47483513, 12943602), (47483531, 10455832), (47483732, 10020212),
(47483949, 10444736), (47484056, 10919110), (47484057, 10903396), (47484179, 10869781), (47484203, 11397476),
(47484557, 10024340), (47484563, 10015774), (47484591, 12941086), (47484616, 10045505), (47484691, 11398603),
(47484890, 9996939), (47485267, 10912216), (47485271, 10909372), (47485284, 10027403), (47485686, 10869428),
(47486533, 10440277), (47486697, 13026894), (47486802, 13031382), (47486930, 12935538), (47487611, 10043080),
(47487727, 9994193), (47488623, 13039419), (47488961, 10869973), (47489055, 10440214), (47489644, 11405657),
(47490061, 12927431), (47490495, 11407247), (47490876, 9992329), (47490972, 13044235), (47491251, 10870928),
(47491301, 13045488), (47493065, 12919132), (47495132, 11410977), (47495366, 10435721), (47496027, 9989284),
(47496058, 12911957), (47496864, 10870800), (47497612, 10870119), (47498146, 13048278), (47500193, 12903677),
(47500395, 10433073), (47500560, 11415739), (47500663, 11415884), (47501377, 9993314), (47502006, 9994401), (47502487,
10875813), (47502616, 12900264), (47503260, 13046197), (47503475, 10878569), (47503485, 10431447), (47504727,
11505664), (47505432, 12896236), (47505463, 11507467), (47505678, 10887201), (47505847, 10434045), (47506197,
11421770), (47506693, 11491265), (47506956, 11490272), (47507008, 9988795), (47507243, 11449332), (47507543,
11424329), (47507744, 10893890), (47507894, 10895438), (47507944, 11449002), (47508093, 12892329), (47508322,
11460565), (47508417, 11466204), (47508505, 13046542), (47508679, 11474490), (47508871, 11533717), (47509099,
11530331), (47509405, 11516529), (47509659, 11539984), (47509708, 10903526), (47509733, 11540169), (47509974,
11521517), (47510192, 9982526), (47511327, 11445941), (47511362, 10438155), (47511564, 11430738), (47511654,
12887237), (47512136, 10911936), (47512258, 11552900), (47512481, 9979429), (47512992, 11432725), (47513097, 10916285)]

/-- borders.go:457-902 -/
def border1 : List (Nat × Nat) := [
(47513197, 11557660), (47513613, 11568776), (47513642, 9977608), (47513696, 12884709), (47513921, 10777508),
(47514066, 10440701), (47514771, 13046700), (47514801, 11572772), (47514970, 10779647), (47515650, 11573799),
(47515654, 10772642), (47515863, 13045836), (47516977, 11442141), (47516982, 11440636), (47517326, 10441699),
(47517469, 10905612), (47517584, 10788368), (47517680, 10768858), (47518153, 9970182), (47518451, 9969381), (47518704,
10916834), (47518818, 10904009), (47519412, 12884458), (47519652, 10903671), (47519655, 10809722), (47519752,
10810277), (47519789, 13043414), (47520042, 10804106), (47520222, 11577311), (47520350, 10793762), (47520380,
10763060), (47520767, 13046712), (47521419, 10440242), (47521726, 12880750), (47521972, 11581968), (47522946,
10439134), (47523448, 12872457), (47523684, 9966337), (47523970, 10763315), (47524526, 10898115), (47525337,
10811766), (47525447, 10838526), (47525458, 12864520), (47525616, 13043197), (47525779, 10764045), (47525917,
12864504), (47526055, 10816339), (47526257, 10837571), (47527007, 10821204), (47527170, 11588038), (47527611,
13037391), (47527676, 12856433), (47528149, 10895622), (47528537, 9874505), (47528788, 10763225), (47529227, 9967401),
(47529251, 9873511), (47529519, 10441868), (47529636, 9921895), (47530025, 9919142), (47530034, 10846665), (47530151,
10892918), (47530921, 10849447), (47531143, 9869783), (47531241, 9928070), (47531323, 11588656), (47531383, 10761138),
(47531479, 13031982), (47531660, 12851066), (47532479, 7693952), (47532496, 7694939), (47532606, 7685420), (47532821,
9725635), (47533180, 7677052), (47533371, 9861809), (47533472, 10571106), (47533656, 9733095), (47533844, 10443990),
(47533891, 10564899), (47533999, 10862118), (47534016, 10573359), (47534101, 9936401), (47534194, 10863160),
(47534412, 9736068), (47534581, 9654882), (47534586, 9958919), (47534714, 9858124), (47534771, 9912482), (47534780,
9960301), (47534786, 9963782), (47534811, 9875989), (47534914, 9937404), (47534998, 10753862), (47535051, 9635996),
(47535167, 10524522), (47535406, 10522899), (47535411, 7702666), (47535463, 7668898), (47535710, 10890861), (47535710,
9609507), (47535715, 9531908), (47535725, 9952219), (47535941, 10870840), (47536018, 10872399), (47536172, 10532870),
(47536239, 9911491), (47536376, 9582728), (47536401, 10880235), (47536564, 13034054), (47536612, 10514697), (47536760,
7666702), (47536794, 10542742), (47536925, 9514684), (47537006, 10549878), (47537073, 10751298), (47537176, 9550566),
(47537242, 10746289), (47537283, 12849653), (47537335, 11587625), (47537626, 10724295), (47537717, 7708217),
(47537801, 10734950), (47537900, 10721967), (47538289, 10503303), (47538656, 7710680), (47538952, 10498788),
(47539258, 10576685), (47539805, 10446819), (47539936, 9853544), (47540006, 9736306), (47540249, 9852853), (47540326,
9908562), (47540403, 10488912), (47540405, 9877966), (47540468, 9967405), (47540543, 9960508), (47541268, 10712978),
(47541302, 9844460), (47541564, 12849248), (47541761, 7718748), (47542051, 13036721), (47542357, 7662892), (47542396,
11585883), (47542576, 7727598), (47542870, 9836864), (47542897, 9969497), (47542918, 7735726), (47543007, 12848033),
(47543129, 10710899), (47543574, 10700174), (47543604, 7743883), (47543672, 9903064), (47543775, 7945528), (47543970,
9891059), (47544112, 10579885), (47544235, 7750272), (47544348, 7940915), (47544426, 10696843), (47544585, 13041118),
(47544601, 12828542), (47544889, 12835129), (47544902, 12817729), (47544999, 7752839), (47545120, 10481607),
(47545157, 9886623), (47545356, 12816470), (47545431, 7660001), (47545572, 9735088), (47545838, 9829207), (47545944,
9886709), (47545956, 9969036), (47545983, 9886657), (47546112, 9877944), (47546386, 9828748), (47546444, 10449973),
(47546663, 7924861), (47546709, 7925626), (47546850, 7651701), (47547214, 9502768), (47547319, 7650627), (47547402,
9818589), (47547573, 7950348), (47547919, 7916448), (47547966, 11587953), (47547966, 10581795), (47547972, 13045053),
(47548395, 12807262), (47548569, 9737738), (47548608, 7914995), (47549025, 7760941), (47549518, 7951335), (47549667,
10582294), (47549848, 10692390), (47549905, 12804720), (47550182, 10473769), (47550321, 7766291), (47550405, 8020716),
(47550435, 10581692), (47550637, 10473063), (47550833, 8016370), (47550943, 8015671), (47551101, 7769144), (47551176,
9739768), (47551257, 10452268), (47551362, 8024879), (47551403, 9816467), (47551981, 10465519), (47552552, 8033682),
(47552583, 7645175), (47552697, 7776554), (47553355, 12800454), (47553460, 11588491), (47553914, 7785238), (47554131,
8042032), (47554441, 13052113), (47554758, 9820519), (47554762, 8007747), (47554808, 7908739), (47554962, 9746057),
(47555086, 7980552), (47555175, 10580043), (47555193, 7982986), (47555293, 7953134), (47555349, 7974645), (47555365,
10690227), (47555593, 7642604), (47555785, 10581841), (47555796, 7908325), (47555855, 12796306), (47555915, 10455317),
(47555998, 8002732), (47556002, 7990273), (47556189, 7992172), (47556227, 10678007), (47556535, 7792989), (47556631,
10682398), (47556870, 9746968), (47556940, 7965343), (47557026, 9823487), (47557371, 8085537), (47557535, 9745419),
(47557849, 8050587), (47558046, 8081279), (47558165, 7639974), (47558168, 8091309), (47558309, 10449360), (47558400,
10664278), (47558739, 10651914), (47558764, 13055429), (47558796, 10665310), (47558904, 10636296), (47558961,
10647920), (47559005, 11589820), (47559358, 10457691), (47559931, 7648276), (47560149, 10630351), (47560195,
10590260), (47560401, 10629251), (47560453, 7907224), (47560669, 11591803), (47561223, 7633956), (47561435, 7651751),
(47561462, 10591415), (47561561, 10447711), (47561586, 10460199), (47561646, 12792846), (47561679, 8057852),
(47562223, 8098905), (47562388, 7799700), (47562543, 9747096), (47562549, 9825840), (47562719, 8073238), (47562874,
12792587), (47562973, 7800398), (47563021, 7908814), (47563109, 8058854), (47563456, 7674454), (47563585, 8072171),
(47563745, 7677316), (47563917, 7636119), (47564304, 13050309), (47564477, 7658752), (47564512, 11597513), (47564635,
10623187), (47564726, 13049801), (47564920, 8100824), (47564933, 7677280), (47565002, 7672310), (47565060, 7665550),
(47565241, 7910756), (47565267, 8383123), (47565443, 10612191), (47565610, 7685919), (47566183, 10607173), (47566282,
10466119), (47566468, 10606652), (47566539, 10620095), (47566563, 8432535), (47566777, 10595698), (47566831, 8429127),
(47566861, 8378718), (47567013, 10466557), (47567192, 10444981), (47567257, 8438334), (47567351, 10438710), (47567510,
11600373), (47567915, 7809387), (47568015, 12786355), (47568183, 9821932), (47568228, 9751844), (47568308, 7810086),
(47568387, 8368896), (47568864, 12784282), (47569207, 8421114), (47569299, 8361910), (47569685, 13046656), (47569764,
8446668), (47569970, 11601478), (47570001, 10432974), (47570299, 8336003), (47570309, 8354024), (47570314, 8339208),
(47570433, 7681022), (47570444, 8416324), (47570577, 8102309), (47570883, 8329759), (47570905, 8388234), (47570914,
8449976), (47571066, 7910645), (47571398, 7689653), (47572008, 8461579), (47572033, 8462870), (47572145, 9755527),
(47572576, 10472617), (47572911, 10433482), (47573120, 12782258), (47573474, 10432973), (47573547, 9756374),
(47573711, 9825736), (47573999, 7812885), (47574201, 8407910), (47574417, 13042415), (47574907, 8471118), (47574952,
8320618), (47575514, 13042137), (47575527, 11603054), (47575640, 8102801), (47575822, 8393840), (47575925, 8402980),
(47576657, 7683853), (47576870, 7619134), (47576940, 7906540), (47577075, 8483841), (47577123, 8484811), (47577231,
7682549), (47577349, 8475493), (47577357, 13043447), (47577680, 7616708), (47577874, 7604882), (47577921, 8487315),
(47578427, 10432031), (47578547, 10470475), (47578764, 12779785), (47579019, 10433149), (47579291, 9756228),
(47579535, 7814293), (47579630, 8315636), (47579752, 11612397), (47579815, 10475433), (47579883, 7605333), (47579972,
9827282), (47580015, 8106189), (47580308, 11630436), (47580401, 7626436), (47580540, 11633215), (47580894, 11615327),
(47581047, 11608020), (47581209, 11843849), (47581245, 11634029), (47581480, 11841134), (47581536, 13043859),
(47581736, 7900982), (47581817, 11845049), (47581989, 11830682), (47582053, 11832813), (47582093, 7841061), (47582171,
11839678), (47582197, 7840223), (47582250, 8109269), (47582273, 8312507), (47582656, 10455812), (47582684, 7680852),
(47582716, 11625764), (47582994, 7850505), (47583188, 10458085), (47583234, 8125489), (47583399, 8133817), (47583516,
10442708), (47583606, 11663874), (47583658, 8120608), (47583715, 10481477), (47583721, 8492849), (47583750, 7816331),
(47583776, 7898214), (47583829, 11681260), (47583913, 10449620), (47583917, 10459807), (47583917, 8468289), (47583919,
10440413), (47584125, 11658208), (47584256, 12783294), (47584395, 11817006), (47584402, 11668825), (47584412,
8473715), (47584645, 10472738), (47584720, 9762394), (47584778, 11815068), (47584831, 13051844), (47584889, 9824600),
(47584930, 7604816), (47585039, 8305208), (47585070, 11686402), (47585162, 8480081), (47585239, 7672069), (47585308,
8304379), (47585347, 11686554), (47585465, 11672849), (47585543, 13060427), (47585806, 13068514), (47585809, 7834638),
(47585833, 13060914), (47585858, 7634102), (47585898, 7817824), (47585958, 7857745), (47586020, 11655297), (47586135,
11804118), (47586164, 11631135), (47586329, 12786428), (47586694, 7858768), (47586796, 11797936), (47587000, 8138011),
(47587141, 7830444), (47587156, 7892670), (47587270, 7671742), (47587394, 11692431), (47587444, 11849235)]

/-- borders.go:903-1348 -/
def border2 : List (Nat × Nat) := [
(47587639, 7598462), (47587692, 11789562), (47587716, 11745308), (47587726, 9820230), (47588009, 8464805), (47588041,
7889734), (47588116, 11739143), (47588379, 8460523), (47588381, 7866349), (47588438, 7876699), (47588491, 11733218),
(47588617, 11750432), (47588744, 9770984), (47588845, 11758746), (47588988, 11703569), (47589036, 11710567),
(47589059, 11786242), (47589097, 11719777), (47589113, 11762670), (47589155, 11650714), (47589404, 11770328),
(47589564, 12790263), (47589852, 9811663), (47589897, 7589039), (47590196, 9452934), (47590217, 11783430), (47590461,
9772782), (47590514, 9810726), (47590615, 8296729), (47590917, 8138630), (47591136, 13071169), (47591234, 7589810),
(47591305, 11850648), (47591341, 7643240), (47591362, 7677380), (47591519, 11642800), (47591614, 11642722), (47591749,
11632464), (47591947, 8295800), (47592021, 13068631), (47592665, 7664621), (47592840, 8143577), (47592907, 7641857),
(47593044, 7675499), (47593080, 11851298), (47593091, 12795273), (47593517, 9791416), (47593656, 9795673), (47593658,
9785239), (47593752, 8161690), (47593881, 8163610), (47594214, 7591529), (47594830, 9445129), (47595017, 8460003),
(47595103, 12794181), (47595167, 8148072), (47595174, 7655961), (47595665, 8574595), (47595812, 7592366), (47596014,
9800266), (47596022, 7683645), (47596110, 8295502), (47596126, 8582557), (47596873, 13063979), (47597199, 8295791),
(47597209, 8566623), (47598493, 7683009), (47598675, 7691974), (47599000, 8171480), (47599164, 11853597), (47599905,
8456535), (47600864, 11863555), (47600890, 12178149), (47600950, 8585986), (47601306, 8561640), (47601498, 12794335),
(47601576, 8589018), (47601738, 7592821), (47601791, 12796536), (47602014, 12179575), (47602079, 8461300), (47602463,
11867382), (47602539, 13063695), (47603189, 8297340), (47603414, 8179414), (47603446, 12182300), (47604277, 11875532),
(47604878, 12190762), (47605009, 8227223), (47605307, 8185332), (47605335, 12139802), (47605376, 13069851), (47605394,
8468132), (47605434, 8470038), (47605469, 8229130), (47605587, 8595746), (47605649, 12129022), (47605686, 12199146),
(47605728, 8224997), (47605793, 12140963), (47605841, 8229834), (47606416, 11885168), (47606447, 12803130), (47606515,
7589622), (47606765, 12203961), (47607103, 7588957), (47607633, 12180047), (47607836, 8294554), (47607868, 13071560),
(47607979, 8599386), (47608051, 8566562), (47608133, 11892885), (47608227, 11902257), (47608288, 12123291), (47608462,
11902862), (47608515, 11899949), (47608640, 12149458), (47608904, 12805021), (47609391, 8265053), (47609420,
12120065), (47609608, 12822879), (47609682, 12087209), (47609744, 12082355), (47609866, 12087561), (47609994,
8271270), (47610003, 12097365), (47610268, 12081297), (47610556, 12207655), (47610641, 12819457), (47610666, 8477810),
(47610721, 12100039), (47610746, 8286535), (47610821, 8569989), (47610944, 8603443), (47610973, 12157929), (47611072,
12027609), (47611081, 12021909), (47611139, 11908921), (47611167, 12815162), (47611201, 12114253), (47611255,
12025335), (47611261, 12811665), (47611377, 12824020), (47611385, 12023164), (47611487, 8223033), (47611638, 8236468),
(47611657, 7581433), (47611738, 8190124), (47612292, 8574389), (47612305, 12208264), (47612424, 8241803), (47612581,
8261544), (47612580, 8245523), (47612729, 11933330), (47612842, 8604714), (47612872, 11934219), (47612978, 11976229),
(47613258, 11924213), (47613293, 12179658), (47613437, 12163567), (47613441, 13075471), (47613769, 11915247),
(47613804, 11940019), (47614071, 12172418), (47614130, 12074279), (47614325, 11943264), (47614370, 8486978),
(47614415, 7576258), (47614880, 12051231), (47614945, 12049576), (47615015, 8495238), (47615399, 11974418), (47615431,
12207675), (47615463, 12033519), (47615519, 11950701), (47616143, 12067563), (47616322, 12046120), (47616413,
12057033), (47616498, 12066438), (47616560, 11960520), (47616590, 8502053), (47616702, 8562918), (47616737, 8220614),
(47616785, 12034266), (47616820, 13079192), (47616937, 8194915), (47617072, 12017112), (47617183, 8505949), (47617267,
8220067), (47617457, 12816596), (47617486, 8195651), (47617728, 7573153), (47617853, 12016249), (47618400, 11980540),
(47618451, 8562059), (47618650, 12206029), (47618962, 13080601), (47619855, 11985345), (47620701, 8211423), (47621088,
11993412), (47621128, 8559877), (47621276, 12810965), (47621285, 8601336), (47622325, 12001239), (47622718, 13087780),
(47622915, 12806979), (47623117, 8558672), (47623189, 12004979), (47623201, 12012762), (47623299, 8510902), (47623805,
8599612), (47623840, 12203475), (47623853, 8507414), (47623884, 12804657), (47623952, 7571035), (47624066, 13089864),
(47625097, 8548403), (47625101, 12499170), (47625258, 12509251), (47625820, 12498553), (47626302, 8538680), (47626621,
12497865), (47626702, 12515595), (47628030, 8514816), (47628187, 12796937), (47628472, 8539264), (47628523, 12796469),
(47629354, 13096110), (47629593, 12202631), (47629838, 7568586), (47629931, 8597156), (47630389, 13096750), (47630742,
12525229), (47631258, 8533552), (47631412, 12526554), (47631710, 8525619), (47632153, 12784982), (47632302, 12575014),
(47632395, 12492938), (47632638, 12572290), (47632651, 12780938), (47633623, 8515657), (47633722, 12563092),
(47634238, 8519779), (47634512, 7564426), (47634572, 12554875), (47634723, 12778192), (47634772, 12533019), (47634788,
13098736), (47635059, 12490659), (47635087, 8596806), (47635205, 12201167), (47635324, 12547572), (47635775, 7562860),
(47635799, 12578264), (47637001, 8607646), (47637098, 8609766), (47637575, 12200314), (47638004, 12773406), (47638245,
12488674), (47638416, 8473485), (47638505, 8618940), (47639504, 8476880), (47639605, 7556269), (47639985, 13097204),
(47640509, 12199180), (47640620, 12771073), (47640706, 13097023), (47640757, 7553894), (47640873, 8595287), (47640926,
8467930), (47641131, 8603804), (47641314, 12482572), (47641609, 8609423), (47641761, 8624200), (47642072, 8493789),
(47642091, 8492384), (47642990, 12581642), (47643893, 8466036), (47644042, 8476322), (47644218, 8625846), (47644249,
12476732), (47644376, 8488748), (47644531, 8493819), (47644884, 8523297), (47644914, 12765496), (47645277, 8526504),
(47645479, 12474278), (47646149, 12195664), (47646273, 7542861), (47646383, 12765004), (47646422, 13090920),
(47646530, 12582657), (47646593, 8602265), (47646604, 8614070), (47646692, 8509029), (47646710, 8475115), (47646964,
8510793), (47647364, 8627503), (47647704, 13089532), (47647847, 8897834), (47647880, 12583293), (47648647, 8902182),
(47648976, 12466704), (47649404, 8534220), (47649687, 8473725), (47649826, 8477734), (47650154, 8464409), (47650220,
7536330), (47650261, 12464697), (47650461, 8890225), (47650926, 8533378), (47651340, 8911175), (47651452, 12191396),
(47652060, 8605295), (47652315, 8628746), (47652425, 13089190), (47652449, 12758462), (47652551, 8918504), (47652628,
12190498), (47652747, 8457272), (47653261, 12587135), (47653874, 8445102), (47653984, 9175971), (47654170, 8925538),
(47654228, 8881742), (47654851, 9170638), (47654880, 8451433), (47654996, 8450406), (47655383, 12766944), (47655465,
9202501), (47655529, 8937385), (47655612, 8462401), (47655837, 8441396), (47655896, 12460251), (47655910, 9181648),
(47655933, 8940898), (47656237, 9267701), (47656246, 8875421), (47656622, 8529597), (47656757, 9234432), (47656854,
8540882), (47656912, 7528162), (47657222, 8943464), (47657323, 12771378), (47657564, 12458939), (47657613, 12186619),
(47657669, 9245880), (47657776, 13086132), (47657918, 8621808), (47659123, 9255817), (47659152, 12775239), (47659247,
9247832), (47659361, 12185243), (47659373, 9164816), (47660308, 9163515), (47660722, 8433602), (47660748, 8616259),
(47661005, 12593065), (47661142, 13082432), (47661391, 12455930), (47661521, 8875870), (47661527, 8577593), (47661559,
8950977), (47661987, 7522780), (47662053, 8531598), (47662122, 8539156), (47662595, 8575169), (47662683, 8574316),
(47662860, 12778027), (47662914, 8955343), (47663036, 12757207), (47663312, 12758411), (47663420, 8608788), (47663453,
12184133), (47663461, 12758734), (47663621, 13079659), (47663655, 12595036), (47663851, 8959324), (47664148, 8608075),
(47664484, 9138068), (47664521, 9140573), (47664667, 8584302), (47665015, 9158631), (47665196, 9135625), (47665250,
8564765), (47665390, 8542073), (47665497, 8425620), (47665522, 8965671), (47665555, 8425452), (47665603, 12771615),
(47665870, 7520339), (47666166, 8415003), (47666381, 9155543), (47666803, 8593169), (47667081, 8874307), (47667083,
12452464), (47667193, 9127119), (47667461, 7519706), (47667880, 8550419), (47668138, 8563437), (47668308, 8971344),
(47668469, 12775440), (47668469, 12451566), (47668505, 12782218), (47668666, 8606181), (47668670, 12602082),
(47668825, 8594995), (47668878, 12181549), (47669064, 12752538), (47669194, 13077348), (47669197, 9116660), (47670122,
12648228), (47670159, 8975593), (47670190, 8873444), (47670552, 12750571), (47671033, 12638780), (47671644, 8407809),
(47671695, 12651374), (47672218, 12177195), (47672389, 12615331), (47672411, 12647206), (47672512, 12655071),
(47672637, 12642003), (47672660, 8869880), (47672742, 12618443), (47672955, 12445431), (47673274, 7518978), (47673321,
12621014), (47673721, 12609340), (47673768, 12443409), (47673818, 12781165), (47674043, 12634249), (47674697,
8982743), (47674946, 8792547), (47674990, 12746073), (47675016, 12173300), (47675032, 13077952), (47675366, 8789567),
(47675480, 9105072), (47676001, 12742326), (47676290, 12715232), (47676800, 12718676), (47677038, 8406991), (47677367,
8794652), (47677389, 7519711)]

/-- borders.go:1349-1794 -/
def border3 : List (Nat × Nat) := [
(47677725, 8782108), (47677785, 12659977), (47678107, 9096257), (47678250, 8864431), (47678264, 8993809), (47678322,
12263244), (47678381, 12709566), (47678479, 8780304), (47678562, 12734594), (47678582, 8408505), (47678627, 12260425),
(47678630, 12440898), (47678853, 7519875), (47678968, 12169456), (47679005, 9081806), (47679024, 9079209), (47679534,
9071726), (47679678, 12700734), (47680277, 8856253), (47680296, 9063558), (47680491, 8416882), (47680495, 13078777),
(47680558, 12168380), (47680595, 12670369), (47680646, 9061038), (47680687, 9000940), (47681206, 12689217), (47681391,
12684820), (47682211, 12695802), (47682373, 9048743), (47682506, 12684202), (47682523, 8771763), (47682794, 8418345),
(47682812, 8794834), (47683204, 9043999), (47683559, 12253118), (47683597, 12270670), (47683685, 8850713), (47683753,
7519337), (47683841, 12252972), (47683842, 12363618), (47684151, 9010899), (47684405, 12369588), (47684414, 9037784),
(47684854, 8669950), (47685044, 12440938), (47685285, 7518846), (47685567, 8665161), (47685755, 9016635), (47686021,
8673918), (47686034, 13080032), (47686078, 12376662), (47686156, 12361306), (47686207, 12378820), (47686362, 8663713),
(47686368, 9026444), (47686405, 12165956), (47686839, 8676204), (47686901, 8765050), (47686919, 12360543), (47688199,
8418182), (47688398, 12279462), (47688443, 8797072), (47688756, 12389152), (47688779, 12280920), (47688784, 8759835),
(47689182, 7516772), (47689267, 8856165), (47689301, 12244803), (47689452, 8709063), (47689722, 12244510), (47689782,
8756082), (47689941, 12442666), (47690044, 8856469), (47690046, 13076370), (47690121, 12292125), (47690200, 8798536),
(47690300, 8704512), (47690349, 12339757), (47690362, 8716930), (47690399, 8683136), (47690422, 12394913), (47690437,
8415956), (47690512, 12353201), (47690775, 8746740), (47690903, 12297341), (47691103, 12397291), (47691694, 12336677),
(47691727, 13073589), (47691861, 8738894), (47691887, 12303893), (47691993, 8807626), (47692039, 8665353), (47692059,
8667338), (47692511, 12403527), (47692621, 8686363), (47692632, 8700523), (47692684, 8728053), (47692757, 13068292),
(47692787, 12335125), (47692807, 8717586), (47693197, 8864984), (47693247, 8727748), (47693503, 12412527), (47693524,
8412906), (47693569, 12315114), (47693972, 8873386), (47694120, 8695390), (47694189, 7512908), (47694349, 12320334),
(47694443, 12432625), (47694499, 8809056), (47694668, 8850803), (47694970, 12421200), (47695003, 8874969), (47695564,
8865746), (47695578, 8406397), (47695628, 8714114), (47695632, 8673931), (47695756, 12241732), (47695920, 12429901),
(47696116, 12163441), (47696219, 12428342), (47696270, 8860613), (47696337, 8804063), (47696419, 12337613), (47697216,
8797584), (47697725, 13060429), (47697774, 8674094), (47698564, 8727103), (47698586, 8711767), (47699037, 8405579),
(47699144, 12162832), (47699920, 8798438), (47700198, 7512333), (47700479, 12183495), (47700649, 12178628), (47700778,
8871233), (47701041, 12243537), (47701167, 12162425), (47701945, 8797754), (47702112, 8408092), (47702372, 12185804),
(47703377, 8848328), (47703380, 8674196), (47703760, 13055703), (47703791, 8872938), (47704138, 8861017), (47704153,
8708908), (47704243, 8729351), (47704439, 12187933), (47704586, 8787404), (47704997, 8782988), (47705053, 8790053),
(47705063, 8847582), (47705120, 7517931), (47705256, 8781058), (47705279, 13052748), (47705435, 8412465), (47705400,
8672264), (47706170, 7519981), (47706391, 8772795), (47706430, 12245379), (47706449, 8846855), (47707153, 12973805),
(47707412, 12987198), (47707416, 12986220), (47707440, 12203648), (47707784, 12968723), (47707799, 12955543),
(47707801, 12195182), (47708579, 8686316), (47708890, 8665751), (47708944, 12953182), (47709010, 8416138), (47709026,
12204829), (47709055, 8683484), (47709194, 8731462), (47709443, 8690228), (47709497, 13048356), (47709554, 12933169),
(47709610, 8706983), (47709658, 8706176), (47709772, 12928224), (47709847, 8681092), (47710018, 12246603), (47710063,
8417009), (47710067, 8731859), (47710384, 8771276), (47710688, 7528069), (47710977, 8823792), (47711095, 8423769),
(47711238, 8826494), (47711483, 12944066), (47711703, 12993599), (47711819, 8844056), (47711823, 12249653), (47711927,
12213520), (47712406, 8822376), (47712617, 7531662), (47712783, 13043390), (47713054, 8838929), (47713099, 12995869),
(47713235, 8772838), (47713255, 12216322), (47713850, 12922762), (47714132, 7534384), (47714700, 12919889), (47714909,
8431941), (47714964, 8700558), (47715116, 13003899), (47715342, 13038792), (47715675, 8735362), (47715724, 13036492),
(47715809, 12221791), (47716033, 8769949), (47716105, 8433533), (47716272, 13027846), (47716524, 13005374), (47717033,
8825540), (47717332, 12254158), (47717652, 8818517), (47717908, 8441650), (47718046, 12226549), (47718210, 7540064),
(47718360, 8772683), (47718858, 12912202), (47718982, 8730865), (47719608, 12255270), (47720013, 12911311), (47720416,
7542237), (47720813, 8724751), (47721166, 13020636), (47721423, 8722399), (47721595, 13019205), (47721602, 8780712),
(47721747, 8442762), (47721788, 8779421), (47722152, 8814352), (47722161, 13008308), (47722194, 8781246), (47722462,
8454926), (47722603, 8813830), (47723558, 7544648), (47724125, 12232260), (47724531, 8804797), (47725351, 12904495),
(47725628, 12904282), (47726289, 8714796), (47726601, 12904720), (47726633, 12261138), (47727263, 8790685), (47727291,
8784724), (47727393, 8790781), (47727619, 8799136), (47727738, 8713797), (47727763, 8810105), (47728288, 8455968),
(47728673, 7547316), (47728675, 8456428), (47729217, 12262826), (47729738, 12237435), (47731018, 12909579), (47731904,
8712357), (47731996, 12264641), (47732353, 12239844), (47733163, 8797051), (47733198, 8451366), (47733395, 8796953),
(47733430, 8807423), (47734716, 7548621), (47734937, 12263993), (47735582, 12243305), (47735756, 8713831), (47736746,
12912420), (47737412, 12913993), (47737562, 8714579), (47738965, 8450098), (47739914, 7548206), (47740295, 12248357),
(47741424, 12258646), (47741963, 12917535), (47742809, 8455832), (47743966, 8721604), (47744292, 12922662), (47744321,
8455468), (47744435, 8455653), (47744694, 8722470), (47745536, 12931092), (47745826, 8730158), (47746528, 8739520),
(47746638, 7544352), (47747188, 12932670), (47749501, 8740795), (47749951, 8457121), (47751211, 7541829), (47752661,
8465032), (47753603, 8737619), (47753878, 12935939), (47755179, 8734997), (47755721, 8695110), (47756518, 8467809),
(47756537, 8696751), (47756565, 7539095), (47757969, 8728945), (47758127, 12937843), (47758196, 8631653), (47758506,
8630864), (47759072, 8629425), (47759592, 8687915), (47759619, 8699097), (47759870, 12940760), (47760672, 8687997),
(47760811, 8728812), (47761546, 8470762), (47761975, 8704626), (47763361, 8638875), (47763439, 8720663), (47763449,
8472468), (47764350, 8640552), (47764413, 12944813), (47764527, 8624089), (47765081, 8686863), (47765409, 8714055),
(47765847, 8646245), (47766683, 7533211), (47766923, 8620535), (47767459, 8479548), (47767551, 8479753), (47768511,
7532158), (47769590, 12928726), (47769818, 8619403), (47770189, 12934785), (47770380, 8649321), (47770474, 12942443),
(47770532, 8520180), (47770606, 8683573), (47770752, 8495351), (47770910, 8496466), (47771841, 8621031), (47772197,
8521069), (47772884, 8687560), (47773149, 8489082), (47773171, 8500702), (47773825, 7530140), (47773862, 8521879),
(47773864, 8504914), (47774156, 8514748), (47775277, 12931874), (47775515, 7529942), (47776148, 8648260), (47776163,
12933704), (47776225, 8684219), (47776363, 8623085), (47777813, 8620717), (47777901, 8562874), (47778008, 8530314),
(47778723, 7529799), (47779348, 8534864), (47779850, 8563375), (47779918, 8571931), (47780498, 8538060), (47780525,
8562040), (47780865, 8617258), (47781154, 12939261), (47781353, 8650054), (47781716, 8682465), (47782844, 8546760),
(47784189, 7530472), (47785691, 8676823), (47786023, 8575180), (47786069, 12945889), (47786392, 8615521), (47786773,
8645943), (47787231, 8672732), (47787386, 8670066), (47788957, 8620491), (47790972, 8569444), (47790975, 12951325),
(47791072, 8568773), (47791289, 12951705), (47791750, 8657393), (47792076, 8621114), (47792527, 8646604), (47792642,
7534671), (47792840, 8658178), (47795948, 8618892), (47796572, 8562481), (47797172, 12960928), (47797581, 8618839),
(47797896, 7537689), (47798156, 8658459), (47798471, 8649590), (47798717, 8592851), (47799592, 8575309), (47800121,
8579880), (47800252, 8595106), (47801910, 8611410), (47802257, 12966077), (47802321, 8562501), (47802578, 8587467),
(47802766, 8599727), (47803085, 8575043), (47803127, 7540768), (47807404, 12970594), (47807661, 7543379), (47808221,
8568183), (47810911, 7544997), (47812688, 7545811), (47814298, 12975855), (47819054, 12978941), (47819392, 7548031),
(47824000, 7550196), (47825419, 12982613), (47827017, 7552255), (47829490, 12985960), (47830901, 12987720), (47831976,
7556452), (47835164, 12994236), (47835501, 7559243), (47836455, 7559895), (47836859, 12996973), (47840378, 13001318),
(47841879, 7562525), (47845418, 13004133), (47846704, 7563437), (47851685, 13002567), (47852640, 7562928), (47856764,
12999279), (47858259, 7560328), (47858265, 12997755), (47862566, 12993650), (47863497, 7557117), (47868683, 12988053),
(47868990, 7555435), (47874792, 12983078), (47874827, 7555744), (47876806, 12981567), (47878955, 7556963), (47880298,
7557790), (47881428, 12978506), (47886685, 7565746), (47887127, 12974950), (47890144, 7573876), (47892122, 7576775),
(47892578, 12971582)]

/-- borders.go:1795-2240 -/
def border4 : List (Nat × Nat) := [
(47897027, 7581181), (47898052, 7581717), (47898484, 12967922), (47899147, 12967490), (47903493, 7583080), (47903700,
12964173), (47909519, 7582286), (47910159, 12957774), (47916756, 12950742), (47918104, 7580906), (47920028, 7580621),
(47922761, 12945895), (47925947, 12943754), (47926247, 7581181), (47932194, 12940733), (47932612, 7584099), (47935958,
7586831), (47937627, 12939046), (47937761, 7588690), (47938978, 12925449), (47939316, 12929174), (47940286, 12920835),
(47942371, 7594627), (47942984, 12938473), (47943163, 12935102), (47943680, 12919189), (47943898, 7596636), (47949302,
12920453), (47951748, 7606811), (47954997, 12917326), (47955686, 7611048), (47956710, 12913014), (47957861, 12903416),
(47958391, 12893652), (47958777, 12888026), (47961104, 7615265), (47961216, 12878624), (47961843, 12877294),
(47965570, 12871944), (47965917, 7618995), (47969172, 12869329), (47972499, 7621897), (47976568, 12866714), (47978477,
7621231), (47980451, 12865629), (47984211, 7619192), (47984291, 12864528), (47987724, 12863595), (47990206, 7616288),
(47991744, 12862290), (47996488, 7612099), (47996619, 12860169), (48000100, 7608998), (48002709, 12858515), (48004084,
7604744), (48005854, 7602679), (48007601, 12857299), (48011458, 7595618), (48013597, 12852755), (48016211, 12850205),
(48020364, 12845013), (48020569, 7584147), (48021181, 7583389), (48022395, 12842362), (48025069, 7578464), (48025136,
12838680), (48027124, 7575683), (48028063, 12833986), (48030577, 7571402), (48032454, 7569875), (48032636, 12826409),
(48038241, 7568970), (48039171, 12815504), (48042411, 12810014), (48043564, 12808047), (48043802, 7571565), (48048872,
12799001), (48050581, 7573632), (48051913, 12793742), (48054518, 7573934), (48055558, 12787466), (48056747, 12785458),
(48061407, 12777903), (48063082, 7572687), (48065882, 7572022), (48065944, 12770485), (48066554, 12769577), (48072457,
12762200), (48073198, 7570349), (48078165, 12757152), (48078356, 7569309), (48082335, 7569414), (48082435, 12754845),
(48084114, 12754041), (48088758, 7571882), (48089374, 12752345), (48094351, 7576247), (48094977, 7576665), (48095612,
12751303), (48099993, 7578909), (48100957, 12750410), (48106053, 7579538), (48107869, 12749280), (48111029, 7578648),
(48112239, 12750855), (48116403, 7577066), (48117601, 12757797), (48118116, 12758269), (48121948, 7578077), (48122839,
12783804), (48122965, 12782937), (48122976, 12758458), (48123894, 12758180), (48126510, 7583076), (48127234,
12774808), (48127962, 7586374), (48128250, 12771331), (48128367, 12762217), (48128726, 12790574), (48130146, 7592353),
(48132438, 12793153), (48133504, 12793895), (48133931, 7597413), (48136805, 7599400), (48139155, 12797709), (48140323,
7600514), (48144101, 12797568), (48149344, 12805188), (48149448, 7599256), (48150005, 12806874), (48150881, 7598986),
(48151310, 12810809), (48152237, 12824366), (48153222, 12828162), (48154471, 12830232), (48156185, 7599852),
(48159721, 12835127), (48165333, 12836047), (48165712, 12843315), (48166142, 12845841), (48167625, 7611578),
(48170908, 7615305), (48171988, 12849424), (48174047, 7619035), (48176082, 12851528), (48179421, 7625258), (48180591,
12855803), (48181579, 12857107), (48184590, 7630224), (48186934, 12861485), (48187193, 7632048), (48192104, 7634968),
(48192465, 12863426), (48197102, 12864741), (48197470, 7638072), (48198041, 12865334), (48202468, 12873686),
(48203078, 12879147), (48203211, 12883568), (48203651, 12891631), (48203755, 7641667), (48204229, 12901708),
(48205590, 12910121), (48206161, 12922591), (48206467, 12938583), (48206500, 12925238), (48206546, 12941873),
(48207585, 12950388), (48208109, 7645050), (48209288, 7646560), (48210242, 12958667), (48211743, 12961932), (48215612,
7658771), (48216488, 12968969), (48217215, 7661928), (48217399, 12970038), (48220372, 7665590), (48225855, 12981763),
(48228435, 12985708), (48233643, 12993660), (48233918, 12994063), (48234615, 7672126), (48238587, 7673800), (48239612,
13001680), (48241585, 13003670), (48244505, 13006035), (48245146, 7676385), (48249622, 13009690), (48251822, 7678949),
(48253035, 13013054), (48254084, 7679785), (48255243, 13016247), (48257800, 13021707), (48260312, 13031427),
(48262013, 13038382), (48263989, 13048988), (48264661, 13052392), (48266055, 7684203), (48266239, 13057483),
(48269742, 13064930), (48275310, 13075038), (48275582, 7687579), (48277272, 7688180), (48277317, 13117116), (48277364,
13113421), (48277625, 13104984), (48277738, 13083617), (48277987, 13098603), (48278459, 13128223), (48279069,
13131115), (48279844, 13133967), (48282894, 13142626), (48282895, 7689293), (48287278, 13154740), (48289491,
13160824), (48290082, 7689232), (48292387, 13169037), (48292874, 13249999), (48293030, 13252375), (48293842, 7689540),
(48293856, 13174523), (48294342, 13176990), (48294598, 13213069), (48295062, 13203430), (48295138, 13261629),
(48295464, 13195495), (48295544, 13187683), (48296330, 7690416), (48299113, 13271467), (48299758, 7692229), (48304782,
13285505), (48305803, 7698316), (48307525, 13292300), (48310684, 7707337), (48313556, 7717761), (48316096, 7728104),
(48316432, 13314467), (48317580, 7733232), (48318507, 13319732), (48319401, 13321977), (48321679, 7740005), (48322259,
13327761), (48322995, 7741494), (48324779, 13331697), (48328638, 7745053), (48331013, 13340420), (48333483, 13343857),
(48334361, 7745444), (48337562, 13349605), (48338723, 13351054), (48340023, 7743508), (48345860, 7741691), (48347207,
13359970), (48348862, 13361778), (48353147, 13367702), (48354522, 13370134), (48355329, 7738628), (48358229,
13377932), (48362601, 7736198), (48363222, 13388504), (48365267, 13392884), (48367890, 13398480), (48369941,
13403190), (48371381, 7733154), (48374707, 13411384), (48374822, 7732257), (48375794, 13412516), (48381581, 7731113),
(48382181, 13416761), (48384248, 7731016), (48386440, 13418400), (48391862, 7731738), (48394014, 13419065), (48395677,
7732599), (48399105, 13419961), (48402606, 7735055), (48404707, 13422015), (48407030, 13423228), (48409803, 13424964),
(48411262, 7739866), (48419776, 7744956), (48424219, 13435005), (48425733, 13435972), (48427342, 7749258), (48430020,
13438940), (48432503, 7752463), (48435596, 13439913), (48442028, 13436713), (48444763, 13434523), (48446844, 7761003),
(48450063, 13429159), (48451180, 7763180), (48453029, 13427347), (48454158, 7764302), (48454477, 13427049), (48457935,
7765571), (48458945, 7765860), (48463092, 13430007), (48464173, 7766717), (48464543, 13430738), (48469846, 13434008),
(48473998, 13437473), (48475164, 7767116), (48475319, 13437980), (48483731, 7767201), (48485242, 13443247), (48486917,
7767194), (48491025, 13446709), (48491555, 13446948), (48492401, 7771667), (48492733, 7772300), (48496167, 7780462),
(48496456, 13448041), (48497173, 13448471), (48498959, 7788929), (48503202, 7796926), (48505164, 7799161), (48505661,
13453503), (48510569, 13457780), (48510579, 7803458), (48512588, 7804730), (48513017, 13727092), (48513151, 13457698),
(48513628, 13727600), (48513653, 13457214), (48514676, 13730134), (48514687, 13720135), (48516264, 13712564),
(48516689, 7806146), (48518286, 13704389), (48519078, 13731409), (48519840, 13450413), (48520903, 13730725),
(48521184, 13448605), (48521535, 13700401), (48521743, 7806755), (48523909, 13696462), (48524636, 13733152),
(48526578, 13740050), (48526688, 13690001), (48527522, 13445064), (48527661, 13687941), (48528250, 7805537),
(48529663, 13747856), (48530522, 13677172), (48531157, 13446213), (48531664, 13671479), (48532016, 13748867),
(48533013, 7804105), (48533628, 13665431), (48534915, 13662775), (48535365, 13748902), (48537660, 13450124),
(48538767, 7803519), (48540649, 13659099), (48541288, 13744445), (48542441, 13444302), (48543697, 7804350), (48543761,
13442738), (48546160, 13656208), (48546740, 13747798), (48548102, 13750598), (48548504, 13438657), (48549911,
7805705), (48551466, 13645464), (48551902, 13753725), (48552286, 13747873), (48552682, 13639464), (48552957,
13631476), (48553481, 13768856), (48553825, 13465828), (48553966, 13768003), (48554305, 13436780), (48554737,
13470262), (48555482, 13622409), (48555554, 13461704), (48556463, 7805650), (48556784, 13772691), (48557025,
13766516), (48557973, 13750431), (48558057, 13475220), (48558740, 13455896), (48559003, 13615825), (48559131,
13751569), (48559353, 13440512), (48559431, 13579870), (48559676, 13581541), (48559942, 13614068), (48560956,
13777330), (48560976, 13570904), (48561259, 13445817), (48561535, 13484883), (48562067, 13780066), (48562503,
7805140), (48562761, 13488155), (48562929, 13762462), (48563067, 13489326), (48563172, 13754153), (48563481,
13481862), (48563597, 13477109), (48563887, 13563147), (48564049, 13609301), (48564683, 13586053), (48565923,
13560234), (48566264, 13606710), (48567529, 13785035), (48567543, 7803998), (48567757, 13786550), (48568292,
13556307), (48568558, 13491783), (48569289, 13591492), (48569872, 13597481), (48570081, 13497388), (48571871,
13795386), (48572617, 7802253), (48572683, 13795984), (48572905, 13547890), (48573760, 13504543), (48575435,
13506316), (48577907, 7800487), (48578026, 13803672), (48579240, 13804831), (48579324, 13503988), (48581457,
13535602), (48583169, 7800339), (48583461, 13806660), (48584107, 7800490), (48584287, 13532267), (48585382, 13504078),
(48588581, 7802075), (48588598, 13524247), (48588678, 13805369), (48589144, 13805165), (48589706, 13806200),
(48590038, 13519547), (48590188, 13508153), (48590600, 13508963), (48594613, 7806711), (48594998, 13800861),
(48599408, 13806698), (48600306, 13808108), (48601463, 7813826), (48605898, 13810076), (48611194, 7822807), (48611283,
13814843), (48613305, 13819576)]

/-- borders.go:2241-2686 -/
def border5 : List (Nat × Nat) := [
(48613707, 7825029), (48616512, 13823065), (48617999, 7828905), (48618276, 13825629), (48622105, 13824512), (48624884,
7833027), (48627488, 13826759), (48627616, 13826832), (48628489, 13826550), (48633313, 13825485), (48633504, 7836065),
(48635166, 7836677), (48639115, 13821781), (48640971, 7839391), (48642289, 7840464), (48644615, 13819624), (48644850,
13819639), (48646473, 7846653), (48647208, 7849020), (48648997, 7856698), (48650712, 13814561), (48652499, 7866369),
(48655155, 7872979), (48656253, 13816593), (48658590, 7881505), (48661933, 13817472), (48662857, 7890345), (48664180,
7892296), (48667463, 13817987), (48668942, 7898292), (48670309, 7899976), (48673066, 13819406), (48677007, 7908259),
(48678806, 13816942), (48682066, 13814581), (48684585, 13813533), (48690255, 13813550), (48690292, 7924664),
(48691786, 13833135), (48691803, 13832897), (48693053, 13824502), (48694939, 13834644), (48699056, 13820641),
(48699752, 13829799), (48700034, 7936629), (48700501, 13836124), (48700670, 13833601), (48700906, 13814236),
(48701399, 13817122), (48701462, 13816172), (48703771, 7941132), (48707200, 13812526), (48707912, 13803937),
(48709894, 7948618), (48710414, 13800730), (48710879, 7949836), (48713596, 13795949), (48717105, 13801507), (48717145,
7957662), (48718924, 13802185), (48721486, 7963228), (48722370, 7964179), (48724333, 13807216), (48728063, 7967472),
(48729107, 13811340), (48729674, 13814268), (48735242, 13817925), (48740306, 7967080), (48740690, 13820424),
(48744661, 13821379), (48745503, 7966996), (48746352, 13821327), (48748976, 13821865), (48751205, 7968171), (48751945,
13821272), (48755602, 7969833), (48756100, 13822539), (48756430, 7970412), (48757406, 13825637), (48758797, 8002171),
(48758818, 8003942), (48759867, 7993022), (48760313, 8012666), (48760611, 13831812), (48760695, 7979682), (48762721,
13836133), (48763073, 8017821), (48765802, 8020960), (48768620, 13839450), (48768681, 8022982), (48770791, 13831396),
(48772359, 13823472), (48773823, 13814460), (48775725, 13811588), (48776069, 8024879), (48779038, 13807631),
(48780929, 13803650), (48781856, 8025846), (48783423, 13808227), (48785615, 8028083), (48786876, 13809853), (48788950,
8059263), (48789283, 8062620), (48789785, 8052953), (48790062, 8037579), (48792008, 13811742), (48792195, 8071964),
(48796512, 8079361), (48797357, 13814989), (48799374, 8083564), (48802183, 8087293), (48802560, 13809246), (48803843,
13807840), (48804257, 8089827), (48809070, 13802070), (48809792, 13801258), (48810012, 8095988), (48815243, 13795914),
(48815267, 8100981), (48819183, 8103855), (48820799, 13794926), (48820940, 13794746), (48821669, 8105127), (48826713,
13789315), (48826735, 8106563), (48830438, 13773770), (48830634, 13786568), (48830778, 13769895), (48832361, 8107554),
(48833295, 13767157), (48838592, 8109103), (48839114, 13763171), (48841630, 13762531), (48842498, 8110741), (48843829,
8111380), (48844915, 13759682), (48849843, 8114210), (48850779, 13756610), (48854421, 13755109), (48856600, 13752187),
(48858097, 8117668), (48861103, 8119259), (48862287, 13749511), (48867586, 8123276), (48867945, 13749336), (48868883,
13748061), (48873853, 13743727), (48875222, 8126379), (48877222, 13740309), (48878211, 13716068), (48878229,
13689254), (48878233, 13688363), (48878490, 13713891), (48878734, 13675938), (48879711, 8129060), (48879746,
13737338), (48879984, 13671935), (48880500, 13706105), (48880515, 13722615), (48880901, 13723652), (48881178,
13703944), (48882757, 13669956), (48884529, 8133468), (48885369, 13737844), (48885777, 13728727), (48885940, 8134789),
(48888497, 13668397), (48890988, 8138447), (48893574, 13655475), (48893605, 13664680), (48894349, 13661520),
(48895174, 13654532), (48895912, 8141153), (48899893, 8143764), (48900418, 13651377), (48901349, 8145336), (48904975,
13648454), (48906486, 13647547), (48907028, 8151629), (48912446, 13644508), (48912793, 8155422), (48916308, 8159152),
(48916407, 13639905), (48917952, 13638871), (48919734, 8164360), (48921866, 8166845), (48923983, 13637562), (48924043,
8169314), (48929763, 13633722), (48929940, 8174525), (48930969, 8175435), (48935696, 13625855), (48936284, 13625199),
(48936311, 8180255), (48938631, 13610243), (48940105, 13608586), (48941021, 8185165), (48941260, 13497848), (48941316,
13623481), (48941433, 13496447), (48941728, 13607823), (48941949, 13506094), (48944089, 13609487), (48944336,
13627027), (48944934, 13600865), (48945132, 13488994), (48946527, 13507884), (48946790, 13486299), (48946945,
13631052), (48946975, 13617048), (48947624, 13618380), (48947875, 13595820), (48949313, 8189865), (48950580,
13592814), (48951653, 13480864), (48952910, 8191565), (48953027, 13477805), (48953234, 13507225), (48953780,
13506954), (48953818, 13472432), (48953888, 13589733), (48958175, 13463900), (48958589, 13506044), (48958624,
8198272), (48959015, 13462397), (48959120, 8199369), (48959316, 13592232), (48961309, 8208448), (48962812, 13506348),
(48963045, 13455008), (48963335, 8219594), (48964498, 8224744), (48965087, 13588598), (48965149, 13449177), (48965196,
8228103), (48965336, 13447944), (48966019, 13572723), (48966877, 13548060), (48966892, 8199409), (48967068, 13557131),
(48967144, 8198939), (48967735, 13568072), (48968037, 13585855), (48968072, 13439533), (48968583, 13507152),
(48968741, 13515892), (48969044, 13542143), (48969550, 8195453), (48969629, 8203791), (48970018, 8207547), (48970043,
13518842), (48970265, 8229131), (48971542, 13433880), (48972087, 13427269), (48972972, 13526258), (48973037,
13537092), (48973959, 13533739), (48975085, 8195729), (48975351, 8216020), (48975528, 8217273), (48976207, 8169738),
(48976339, 8187674), (48976987, 8153198), (48977411, 13424398), (48977505, 8159232), (48977510, 8180433), (48977748,
8146786), (48978096, 13422805), (48979035, 8138200), (48979527, 8136577), (48981041, 13414476), (48982356, 8128285),
(48983675, 13409465), (48984730, 8119694), (48984768, 8119460), (48984874, 8125242), (48985295, 13406358), (48986161,
8108349), (48988580, 8097691), (48989229, 8091569), (48989678, 13402509), (48989718, 8088111), (48992455, 8085449),
(48995149, 8077801), (48995289, 8076980), (48995650, 13403295), (48999399, 8068432), (49000537, 8065407), (49001356,
13407880), (49002503, 13408822), (49006073, 8061409), (49006850, 13408636), (49006918, 8058363), (49011572, 8052549),
(49012166, 13401775), (49013887, 8046052), (49014854, 13400747), (49014911, 8041721), (49016752, 8035100), (49017903,
13401019), (49018155, 8031870), (49018181, 8022834), (49018659, 13401533), (49020386, 8015508), (49021915, 8012591),
(49023354, 13405803), (49025390, 8006436), (49025804, 7981384), (49026088, 7980448), (49026667, 7974942), (49026909,
7985189), (49027273, 8001167), (49028039, 7997349), (49028965, 13401871), (49030097, 13402219), (49032362, 7973491),
(49032962, 7867340), (49034308, 7868800), (49035026, 7858075), (49035068, 13399767), (49035163, 7856215), (49035550,
7969395), (49035600, 7869972), (49038211, 7967408), (49039836, 13394206), (49040109, 7913096), (49041064, 7851442),
(49041078, 13392173), (49041271, 7876156), (49042143, 7913169), (49042197, 7876898), (49042721, 7919989), (49042727,
7961097), (49042737, 7846412), (49043299, 7956948), (49043346, 7911112), (49043498, 13395171), (49044006, 7732357),
(49044750, 7901900), (49045014, 7674706), (49045315, 7757288), (49045806, 7841530), (49046079, 7953680), (49046120,
7839804), (49046275, 7765441), (49046289, 7755664), (49046366, 7747326), (49046489, 13397985), (49046806, 7885482),
(49046821, 7667134), (49047106, 7832304), (49047225, 7665519), (49047300, 7678786), (49047453, 7892083), (49047792,
7679463), (49048760, 7948779), (49048957, 7692348), (49048976, 7926050), (49049195, 7658314), (49049600, 7696917),
(49049692, 7731584), (49050228, 7770175), (49051058, 7721632), (49051294, 7648598), (49051350, 7720322), (49051367,
7826205), (49051650, 7928631), (49051890, 13395680), (49052465, 7708175), (49052530, 13394420), (49052821, 13386344),
(49052985, 7823629), (49053226, 7638190), (49054004, 7773913), (49054155, 7634579), (49054174, 7931056), (49054273,
7940687), (49054339, 7692751), (49054532, 7731312), (49054683, 7945930), (49054941, 7727151), (49055028, 7815615),
(49055498, 7706495), (49055929, 7698254), (49056484, 7776370), (49057232, 13378087), (49057511, 7812450), (49058048,
7788266), (49058226, 7632509), (49058588, 13375758), (49059699, 7790025), (49061975, 7806565), (49062096, 7792353),
(49062148, 7805485), (49063418, 7632640), (49064770, 13372512), (49066884, 13370954), (49069305, 7631195), (49070523,
13362768), (49074099, 7622041), (49074210, 7620127), (49075969, 7615344), (49076237, 13355698), (49078446, 13354678),
(49079802, 7568987), (49079802, 7608099), (49080183, 7563750), (49080313, 7573661), (49081408, 7605865), (49081572,
7584223), (49081987, 13346556), (49082074, 13346402), (49082755, 7594458), (49083876, 7554838), (49087744, 13345096),
(49088110, 7545262), (49089304, 7543258), (49091316, 13338673), (49093627, 7535695), (49093787, 13336068), (49095223,
13330449), (49096430, 7537810), (49096884, 7531340), (49097117, 7528568), (49099852, 13325060), (49099997, 7529056),
(49100885, 13322247), (49103561, 7528231), (49104468, 13313799), (49105460, 7524066), (49106599, 13309019), (49108702,
13305412), (49111197, 7521268), (49111951, 7057036), (49112101, 13299830), (49112946, 7052035), (49113503, 7051112),
(49113551, 13297474), (49113698, 13236408), (49113817, 7064494), (49113867, 13237545), (49114492, 13241494),
(49114846, 13232452), (49114989, 7293556), (49115208, 7198322), (49115606, 13246953)]

/-- borders.go:2687-3132 -/
def border6 : List (Nat × Nat) := [
(49115695, 7291653), (49115817, 7200045), (49116248, 13227974), (49116686, 7518975), (49116939, 7282622), (49117269,
7298661), (49117432, 13254869), (49117465, 7518458), (49118300, 7197740), (49118638, 13289183), (49118643, 7202196),
(49118739, 13219724), (49118740, 13263953), (49118918, 7044766), (49119085, 13267963), (49119614, 7068387), (49119839,
13272589), (49120414, 7159402), (49121134, 13211531), (49121175, 7283923), (49121421, 7301729), (49121581, 7155734),
(49121742, 7069820), (49122386, 7154804), (49122408, 7512017), (49122465, 7505514), (49122740, 7266817), (49122741,
7303507), (49122817, 7160131), (49123086, 7276543), (49123492, 7208003), (49124050, 13202507), (49124473, 7208644),
(49124493, 7044443), (49124626, 7258799), (49125148, 7220192), (49125506, 7074193), (49125600, 7146532), (49125815,
7190852), (49125823, 7227023), (49127007, 7078602), (49127238, 7249221), (49127258, 7305994), (49127292, 7168143),
(49127624, 7140891), (49127742, 13196266), (49127775, 7233672), (49127846, 7187618), (49128110, 7176787), (49128358,
7136194), (49128446, 7164942), (49128774, 13194501), (49128829, 7501256), (49128838, 7174266), (49129175, 7186854),
(49129471, 7087718), (49130283, 7500380), (49130350, 7311031), (49131205, 7045699), (49132298, 7090052), (49132634,
13186771), (49132998, 7498924), (49133293, 7311953), (49133483, 7131747), (49133541, 13184828), (49136131, 7046987),
(49136466, 7490578), (49137701, 7085813), (49138018, 13178512), (49138299, 7085050), (49138357, 7104514), (49138827,
7489285), (49138983, 7128736), (49139231, 7128400), (49139663, 7317572), (49139737, 7112392), (49139937, 13176136),
(49141478, 7495478), (49141505, 7321547), (49141619, 7044105), (49142830, 7083167), (49143252, 7362637), (49143266,
7345461), (49143514, 7360818), (49143518, 7103132), (49144009, 13170296), (49144286, 7343303), (49144637, 7496234),
(49144996, 7330022), (49145232, 7341589), (49145600, 13170984), (49146234, 7362704), (49146572, 7041681), (49147407,
7040852), (49147865, 7499994), (49148407, 7080365), (49149960, 7111648), (49150526, 7505720), (49151282, 6834175),
(49151476, 13173206), (49151482, 6833369), (49151545, 7361552), (49151937, 7089695), (49152558, 7107931), (49152620,
7035571), (49152698, 7093427), (49154178, 6824535), (49154926, 7107001), (49154973, 7097625), (49155126, 6842523),
(49155147, 7495980), (49155665, 7497670), (49156116, 6821118), (49156585, 13174046), (49156705, 7032233), (49157171,
6847382), (49157459, 7363391), (49157632, 6815457), (49158023, 7031798), (49159677, 7032330), (49159763, 6806455),
(49161169, 6803588), (49161815, 7368987), (49161908, 13176705), (49162784, 7459203), (49162796, 6798202), (49162948,
6844621), (49163396, 7366973), (49163497, 7492697), (49163671, 7033295), (49163672, 6738557), (49164236, 7437714),
(49164310, 7438735), (49164725, 6761532), (49164764, 7465018), (49165012, 6763924), (49165076, 6745124), (49165077,
7433822), (49165193, 7441149), (49165229, 6736154), (49165451, 6756785), (49165686, 7455757), (49165697, 7031149),
(49165874, 6767539), (49165984, 7466338), (49166046, 6748007), (49166481, 6788596), (49166552, 7454872), (49166904,
6772373), (49168140, 13175157), (49168231, 7494006), (49168434, 6845412), (49168564, 7364961), (49168761, 7477796),
(49169379, 7028051), (49169612, 7481905), (49170819, 7440989), (49172011, 13172525), (49172366, 6726968), (49172865,
7369463), (49173624, 13170897), (49174185, 13164157), (49174316, 6857448), (49174319, 6858277), (49174522, 6854017),
(49174613, 6859184), (49174797, 7028244), (49174933, 7379193), (49175226, 6720499), (49176438, 7437254), (49176772,
7436761), (49177319, 7396251), (49177751, 6718800), (49177980, 7030883), (49178551, 13156097), (49179550, 7411876),
(49180170, 13153601), (49180514, 6861246), (49180527, 7033151), (49180677, 6716729), (49181090, 7423078), (49181829,
7428323), (49182396, 7444058), (49182905, 13147888), (49183259, 7445255), (49185849, 13145294), (49185928, 6858950),
(49186534, 7033401), (49187066, 6712206), (49187697, 6856796), (49187950, 7010913), (49188614, 7013492), (49188904,
7023903), (49190398, 13139612), (49191611, 6853031), (49191848, 7017026), (49191851, 13136045), (49191913, 7009719),
(49192292, 7022214), (49194176, 7003356), (49195099, 6718962), (49195346, 13131559), (49197142, 6850932), (49197305,
6997216), (49197313, 13123140), (49197835, 13123005), (49198128, 6722494), (49199723, 6994203), (49201233, 13113734),
(49201803, 6990680), (49202449, 6850258), (49203092, 6959664), (49203232, 6959180), (49203964, 13109764), (49204788,
6846319), (49205162, 6983953), (49205810, 6731337), (49206081, 6953703), (49207889, 6842896), (49208540, 6970276),
(49208827, 6892611), (49209474, 13112822), (49209506, 6890429), (49210552, 6728189), (49211141, 6836508), (49211227,
6885172), (49212466, 6898312), (49212539, 6880441), (49212932, 6945501), (49213348, 6837839), (49214550, 6909174),
(49214706, 6873270), (49215125, 13114693), (49215211, 6697153), (49215522, 6871594), (49215978, 6698861), (49216400,
6913842), (49216441, 6846331), (49216726, 6939931), (49217289, 6915353), (49217658, 6709226), (49218902, 6723231),
(49219198, 6691262), (49219432, 6851752), (49219550, 6939087), (49220123, 6866095), (49220375, 6716977), (49220489,
6854100), (49220811, 13109174), (49220834, 13107779), (49220937, 6689456), (49220938, 13107201), (49221802, 6918450),
(49222027, 6928691), (49222284, 6927935), (49222324, 6933744), (49223781, 13099428), (49224726, 6688430), (49226366,
6689067), (49226519, 13090883), (49227367, 13089079), (49230528, 6690647), (49233044, 13088856), (49236146, 6689553),
(49238592, 13087303), (49238764, 6687936), (49241542, 6684836), (49244406, 13083920), (49244495, 13083832), (49244616,
6687530), (49246351, 13072905), (49247464, 6690104), (49249542, 13064193), (49250810, 6686231), (49250882, 13059747),
(49252074, 13058272), (49252925, 6683854), (49254520, 6665935), (49254985, 6669591), (49256634, 13056739), (49257705,
6661965), (49262339, 13056662), (49263639, 13047269), (49263927, 13033985), (49264022, 6662756), (49265565, 13033064),
(49269152, 13030748), (49270316, 6667163), (49270755, 6667782), (49275204, 13027462), (49275763, 6666505), (49277533,
6668016), (49278761, 13025538), (49280690, 6667423), (49281142, 13026789), (49281208, 6653620), (49281629, 6663096),
(49285568, 6651390), (49286329, 13029699), (49288043, 6648088), (49291799, 13030496), (49291957, 6642462), (49295131,
6636165), (49297061, 6631398), (49297130, 6630569), (49297766, 13029995), (49301544, 6625743), (49301606, 6615619),
(49303803, 13029177), (49304451, 13027513), (49304796, 13018943), (49305666, 13008837), (49305774, 6611211),
(49306596, 6609569), (49309288, 13005342), (49312103, 6605003), (49312629, 13002678), (49313453, 6602692), (49315207,
12997919), (49317322, 12994374), (49317486, 6594731), (49318840, 6592778), (49321115, 12990068), (49323160, 6590177),
(49325004, 12985753), (49327325, 12980742), (49328412, 6594484), (49329274, 12977540), (49330042, 6595675), (49332350,
12886846), (49332478, 12876913), (49333394, 6592161), (49333584, 12873831), (49333739, 12972744), (49334292, 6581102),
(49334775, 6589300), (49334922, 12969248), (49335873, 12887134), (49336711, 12865883), (49336743, 12958436),
(49336875, 12865486), (49338121, 12853390), (49339296, 12955247), (49339519, 6576428), (49340728, 12837239),
(49340971, 12826648), (49341014, 12952786), (49341119, 12822276), (49341164, 12812595), (49341624, 12803089),
(49341670, 12883672), (49341970, 12883423), (49342078, 12840166), (49342229, 6574164), (49342253, 12939018),
(49342785, 12935562), (49342788, 12848663), (49342939, 12796499), (49343446, 12919325), (49343716, 12918281),
(49344915, 12787894), (49345100, 6568464), (49346489, 12911167), (49346905, 12909599), (49347457, 12880200),
(49347936, 12779304), (49348945, 12896299), (49349433, 6565095), (49349498, 6587993), (49349886, 12892716), (49350813,
12778591), (49351062, 6565096), (49351088, 6589688), (49353942, 6564720), (49355432, 6592478), (49355903, 6563582),
(49356152, 6564652), (49356319, 12779834), (49356337, 6581719), (49356686, 6579006), (49357046, 12780645), (49358085,
6591788), (49362490, 12778886), (49365079, 12770084), (49366640, 6599830), (49368516, 6583228), (49368572, 12765059),
(49369248, 6598934), (49370176, 12763371), (49370272, 6589843), (49373682, 6584142), (49374554, 12758787), (49379254,
6586109), (49379630, 12759896), (49384945, 6585731), (49385477, 12760300), (49388180, 6565231), (49388840, 6577882),
(49390203, 6561922), (49391342, 6560876), (49391624, 12758583), (49394138, 6552295), (49395763, 12756094), (49396403,
6551215), (49396879, 12754271), (49399295, 6551893), (49400235, 12748735), (49400965, 6545941), (49401198, 6540993),
(49403594, 12743268), (49405860, 6538862), (49406023, 12739286), (49409611, 12733462), (49410455, 12730683),
(49412070, 6538550), (49412513, 12721920), (49413593, 6542139), (49414130, 12714815), (49415925, 12714811), (49416778,
6552744), (49417637, 6553415), (49417904, 6548750), (49421315, 12712119), (49423908, 6552406), (49424895, 12705811),
(49425325, 12697725), (49425806, 12689279), (49426093, 12679372), (49426569, 6548864), (49427552, 12675499),
(49428764, 12672234), (49429246, 6544510), (49432323, 12663239), (49432483, 6537530), (49433661, 12659297), (49434244,
6535232), (49434796, 12655553), (49435268, 6527101), (49437113, 6522022), (49439097, 6517205), (49439314, 12658043),
(49441803, 6512879), (49445051, 6509214), (49445054, 12657118), (49446046, 12656412), (49448126, 6503420)]

/-- borders.go:3133-3578 -/
def border7 : List (Nat × Nat) := [
(49449711, 6500322), (49450615, 6494786), (49450660, 12657806), (49451920, 6485666), (49452505, 12656834), (49454707,
6481280), (49456433, 12654916), (49458632, 6476195), (49460335, 6473447), (49462258, 12651875), (49462890, 6455921),
(49463941, 6459167), (49464065, 6376555), (49464107, 6393265), (49464561, 6388751), (49464715, 6451848), (49465041,
6462745), (49465659, 6399998), (49466342, 6448206), (49466751, 6440569), (49467079, 6407091), (49467506, 12648934),
(49468113, 12648619), (49468628, 6371587), (49468750, 6410416), (49469023, 6369677), (49469669, 6436250), (49470923,
12640759), (49471244, 6414509), (49472551, 6367269), (49473853, 12639012), (49475555, 6426124), (49475803, 6422430),
(49478262, 6367239), (49479647, 12635643), (49483326, 12641974), (49483885, 6367613), (49485030, 12643906), (49489679,
6368567), (49490740, 12643698), (49495192, 6366549), (49496530, 12642142), (49500795, 6367132), (49502139, 12640749),
(49506735, 6366365), (49507720, 12642631), (49510152, 12643591), (49512407, 6363791), (49513380, 12643640), (49517572,
6361158), (49519091, 12642757), (49523375, 6358492), (49524996, 12642249), (49526517, 12621325), (49527007, 12628597),
(49528427, 12614529), (49528605, 6356295), (49528849, 6356153), (49530803, 12638374), (49530978, 12607741), (49531066,
12630603), (49531769, 12604670), (49531778, 6356131), (49533270, 12599764), (49534491, 6358316), (49536648, 12591734),
(49538485, 12588551), (49538977, 6364149), (49540543, 12593800), (49540583, 6366644), (49543275, 12591572), (49545809,
6372564), (49546549, 6373716), (49548594, 12584735), (49549530, 12583575), (49552515, 6380232), (49552824, 6380487),
(49554956, 12580493), (49557484, 12576942), (49558119, 6380983), (49558977, 6379648), (49561456, 12574421), (49563440,
6371283), (49564009, 6370211), (49567004, 12572584), (49569155, 6359667), (49573016, 12572755), (49574110, 6357538),
(49576448, 6360601), (49576715, 6378885), (49576780, 6377726), (49578220, 12574092), (49580816, 6381830), (49583638,
12576333), (49583857, 6377188), (49586218, 6374884), (49589788, 12573363), (49591978, 6374846), (49592047, 12570310),
(49593649, 6376348), (49595188, 12565628), (49597856, 6381262), (49599787, 6384539), (49600489, 6393293), (49601032,
12563846), (49604254, 6401121), (49604567, 6401472), (49606776, 12562888), (49610323, 6406454), (49612285, 12558347),
(49613081, 6409533), (49616304, 6415583), (49617136, 6417860), (49617904, 12536054), (49618099, 12528104), (49619605,
12560743), (49620440, 12528248), (49621014, 12548122), (49621258, 12545785), (49622225, 6421797), (49622638,
12529650), (49626081, 12534285), (49626396, 12528418), (49627882, 6424105), (49630094, 6425257), (49630277, 12523825),
(49633867, 6426539), (49635792, 12525419), (49639628, 6430220), (49641436, 12526409), (49642273, 12520571), (49643557,
6432825), (49645392, 6434050), (49647357, 12518150), (49650930, 12522323), (49651270, 6437811), (49652821, 12524506),
(49656904, 6439894), (49657840, 12522711), (49658532, 12523148), (49658893, 12522677), (49659758, 6429312), (49661997,
6425154), (49664049, 12528166), (49667852, 6428476), (49669558, 6430395), (49669727, 12527954), (49673655, 6439173),
(49674353, 6440161), (49675495, 12524386), (49675683, 12523871), (49678602, 6446882), (49680048, 6448469), (49681222,
12522456), (49685177, 12505249), (49685642, 12496716), (49686026, 6454382), (49686319, 12508374), (49686716, 6455000),
(49686950, 12488548), (49687205, 12513092), (49687317, 12517978), (49688996, 12485081), (49691778, 6459810),
(49692793, 6463182), (49693989, 12484048), (49694498, 6471697), (49695424, 12479742), (49697496, 6480162), (49697805,
12469122), (49698477, 6481615), (49699336, 12464138), (49700042, 12462038), (49701088, 12452980), (49702364,
12446630), (49704199, 6488531), (49704298, 6488668), (49707392, 12439309), (49708670, 12438444), (49710253, 6496187),
(49710585, 6496683), (49712092, 12435434), (49713503, 6506266), (49716314, 6506094), (49717390, 6504255), (49717956,
12432930), (49719504, 12430210), (49721449, 6513044), (49721731, 6497511), (49722158, 6509829), (49722376, 6515951),
(49723729, 12428458), (49723730, 6495104), (49727842, 6508703), (49729309, 12426072), (49730982, 6503164), (49731022,
12420555), (49732113, 12413732), (49733126, 6501600), (49735409, 12412667), (49738813, 6501963), (49741156, 12405510),
(49741397, 12405422), (49744501, 6501772), (49744986, 6502031), (49746925, 12405330), (49750265, 6500223), (49752872,
12401329), (49753576, 6501223), (49755991, 6505972), (49757040, 6509775), (49758457, 12401558), (49761797, 6518034),
(49762354, 6518167), (49763239, 12407162), (49763791, 12408590), (49764395, 6517729), (49766951, 12416982), (49767996,
6517698), (49768740, 6517279), (49769546, 12423980), (49770077, 12425373), (49773298, 6510061), (49773465, 12434397),
(49774574, 12437368), (49776874, 12443525), (49779402, 6513666), (49779668, 12451019), (49780268, 12452619),
(49781466, 6516146), (49783654, 12461611), (49784720, 6513811), (49785237, 12465822), (49785888, 12471953), (49787439,
6506659), (49790060, 6505739), (49790305, 12474863), (49791124, 6506537), (49792291, 12470130), (49794439, 6515154),
(49796411, 6520117), (49796667, 12465773), (49799524, 6523363), (49801367, 6511553), (49801607, 6510313), (49802321,
6526487), (49802325, 12470501), (49803045, 6514715), (49807203, 6507036), (49807608, 6518015), (49807898, 12466416),
(49808096, 6529688), (49809462, 6504480), (49810247, 6431067), (49811087, 6492395), (49811270, 6450949), (49811285,
6453630), (49811766, 6442862), (49812094, 6487528), (49812483, 6486666), (49813211, 12467635), (49814623, 12472111),
(49815363, 6425783), (49815970, 6420446), (49816275, 6460245), (49816534, 6415911), (49816664, 6460611), (49817644,
6481298), (49818617, 6406485), (49819077, 12474813), (49819964, 6401300), (49820204, 6476740), (49821867, 6397837),
(49824585, 12476058), (49825659, 6394194), (49829988, 6388247), (49830176, 12473483), (49830770, 6387270), (49832634,
12473075), (49835772, 12475342), (49835894, 6327616), (49836203, 6381418), (49836393, 6325724), (49837525, 12497979),
(49837683, 6334925), (49837977, 6378591), (49839369, 12491025), (49839384, 6320448), (49840113, 6337793), (49840998,
12488204), (49841269, 12498989), (49841270, 12481941), (49841612, 6373648), (49845076, 6320093), (49845945, 6339499),
(49846655, 6368875), (49847204, 6368296), (49847326, 12499109), (49849009, 6342592), (49850424, 6351892), (49850946,
6322584), (49852941, 12497628), (49856279, 6316801), (49857210, 12501346), (49857548, 12505736), (49858547, 12510969),
(49858915, 6314878), (49861895, 6313421), (49863411, 12514983), (49865099, 6314325), (49866064, 6297876), (49866381,
6296454), (49866754, 6295721), (49867056, 6302092), (49867483, 6313440), (49869068, 12518576), (49872408, 6291403),
(49874975, 6286776), (49875189, 12518653), (49876684, 6275866), (49877321, 6272696), (49877413, 6277956), (49879324,
6268137), (49879454, 12520303), (49880529, 12521239), (49882555, 6259977), (49882956, 6259272), (49885533, 12526849),
(49887850, 6255716), (49888137, 12530570), (49890807, 12535465), (49891221, 12539459), (49891935, 6249880), (49893351,
6248297), (49896093, 6240457), (49896405, 12545880), (49898626, 6236406), (49898849, 12548083), (49902731, 12550576),
(49903849, 6232355), (49907677, 12551089), (49908167, 6230394), (49909414, 6228506), (49911108, 6230375), (49913201,
12549035), (49915251, 6233156), (49919255, 12548324), (49920870, 6229410), (49920969, 6229235), (49922190, 6220301),
(49924285, 12540846), (49924697, 12539152), (49925588, 12531770), (49926058, 6220064), (49927577, 12512114),
(49927683, 12522326), (49929182, 12505830), (49931946, 6224058), (49932047, 12498986), (49932642, 12496891),
(49935535, 12478335), (49935693, 12482990), (49937977, 12475613), (49938150, 6225851), (49943250, 6219988), (49943747,
12471532), (49944508, 6216543), (49948168, 6197660), (49949013, 6223551), (49949849, 12471943), (49950172, 6217096),
(49950815, 12473462), (49951470, 6199793), (49952143, 6179663), (49952570, 6181929), (49952738, 6178831), (49953116,
6183485), (49953501, 6195417), (49953740, 6202192), (49954395, 6208502), (49955252, 12476725), (49957882, 12488016),
(49958345, 6176691), (49958533, 12490452), (49958609, 6183130), (49959063, 6194105), (49960141, 12491134), (49962168,
6171900), (49963854, 6169176), (49964251, 6181089), (49964685, 6192167), (49965998, 12493763), (49969233, 6165605),
(49971423, 12497482), (49974932, 6165209), (49977159, 12493321), (49979643, 12491250), (49980741, 12476609),
(49980749, 6168489), (49983814, 12475440), (49983984, 6172400), (49984390, 12431479), (49984537, 12432099), (49985219,
12473665), (49986338, 6166429), (49986416, 12440722), (49986811, 6159269), (49988796, 12430360), (49989415, 12468481),
(49989875, 12447126), (49990274, 12448552), (49990408, 12426194), (49991453, 6152227), (49992968, 12431691),
(49993063, 12465824), (49993532, 6151033), (49994806, 6141958), (49996360, 12435378), (49996572, 6139452), (49998075,
6144533), (50000301, 12424387), (50001271, 12422038), (50001725, 12431682), (50001748, 12427254), (50001925,
12419929), (50002577, 6146395), (50004588, 12413902), (50004966, 12402271), (50008135, 12398799), (50008154, 6149538),
(50008467, 6149595), (50009180, 6149374), (50010561, 6140394), (50012474, 12386597), (50012530, 12388224), (50013445,
6135981), (50013698, 12402733), (50013882, 12396821), (50014359, 12379302), (50014725, 12379050), (50017397, 6130732),
(50017423, 12367493), (50017832, 6140211), (50018957, 6129858), (50019014, 6132708), (50019422, 6142733)]

/-- borders.go:3579-4024 -/
def border8 : List (Nat × Nat) := [
(50020916, 12366330), (50024396, 12359803), (50024980, 6139990), (50025518, 6138842), (50026304, 12356663), (50029393,
12353530), (50030500, 6129561), (50032163, 12349025), (50032188, 12328846), (50032548, 12326908), (50032783,
12329707), (50032788, 12326023), (50036158, 6132254), (50037299, 12345270), (50037999, 12342751), (50038294,
12335505), (50038511, 12324321), (50041876, 6133413), (50043129, 12319174), (50044334, 12317644), (50047289, 6127710),
(50047411, 6127604), (50050156, 12319220), (50052706, 6121405), (50055171, 12279254), (50055512, 12310947), (50056017,
12307580), (50056334, 6117762), (50056597, 12284827), (50056801, 12279039), (50057620, 12293952), (50058120,
12261624), (50058123, 6113241), (50058306, 6120657), (50058567, 12275850), (50062851, 12260745), (50063704, 6113913),
(50064501, 6118475), (50068398, 12265793), (50069780, 6122870), (50070411, 12267972), (50070936, 6125692), (50073906,
12272468), (50074472, 6115912), (50075190, 6116549), (50075781, 6126436), (50078187, 12267832), (50079950, 12264549),
(50081114, 6121798), (50082901, 12259220), (50086358, 12254406), (50086733, 6119654), (50090661, 12251140), (50091578,
12248471), (50091580, 12252399), (50092409, 6130400), (50092451, 6120504), (50092642, 6131971), (50092749, 6128145),
(50093035, 6132711), (50094134, 12233566), (50094226, 12234013), (50097288, 12246847), (50097769, 12227479),
(50098379, 6125971), (50101634, 12211021), (50102351, 12217914), (50102587, 6132921), (50103647, 12221876), (50104121,
12208035), (50104574, 6134935), (50105193, 12207862), (50109803, 12200634), (50110167, 6132391), (50114344, 6129393),
(50115475, 12202538), (50115671, 6128199), (50117155, 12199746), (50119844, 6128984), (50121293, 12197759), (50121321,
6129190), (50125666, 6137190), (50127070, 12196679), (50127455, 6137453), (50132657, 12196091), (50133050, 6138620),
(50135456, 6146095), (50138594, 12194691), (50139595, 6151338), (50141216, 6153624), (50144203, 12198946), (50145691,
12203620), (50146210, 6152791), (50147034, 6152524), (50147999, 6140807), (50150284, 12203226), (50150314, 6139181),
(50150497, 6145848), (50151499, 12200050), (50151829, 6134108), (50155653, 12205857), (50156376, 6144025), (50158912,
12211392), (50161493, 12212889), (50161926, 6145966), (50165325, 6141675), (50167143, 12215560), (50167369, 6139932),
(50168651, 12209504), (50169624, 6141601), (50171325, 12332118), (50171649, 12323012), (50171757, 6159986), (50171814,
6157075), (50171903, 12318389), (50172258, 12208554), (50172609, 12336249), (50173264, 6144375), (50173761, 12309606),
(50174210, 6154019), (50174618, 6161136), (50174642, 12295247), (50174655, 12334197), (50175425, 12303451), (50175972,
12292550), (50176025, 12327559), (50176302, 12291884), (50177991, 12205375), (50178146, 6180518), (50178673, 6170597),
(50178810, 6185713), (50180443, 6178245), (50180529, 12326308), (50181427, 12291318), (50181448, 12203599), (50182034,
6192321), (50183002, 12328141), (50183673, 12202657), (50186173, 12329616), (50186672, 6190263), (50187380, 12284349),
(50188615, 12282350), (50189672, 12199688), (50191205, 12195171), (50191240, 12337439), (50191605, 12337840),
(50192181, 6184409), (50193258, 12277559), (50193380, 12337385), (50195432, 12188925), (50196076, 12275384),
(50197402, 12333398), (50197691, 12196313), (50198063, 6185456), (50198876, 12277011), (50199144, 12183715),
(50201147, 12328424), (50201189, 12285030), (50201198, 12182623), (50203427, 12325988), (50203506, 6185650),
(50204343, 12288443), (50204802, 12178306), (50207006, 12178043), (50207970, 12282960), (50209104, 6182322),
(50209228, 12325944), (50209978, 12287792), (50210075, 12282940), (50211228, 12159692), (50211690, 12161611),
(50212525, 6180972), (50212793, 12175118), (50212900, 12169365), (50213198, 12158500), (50214497, 6178592), (50214670,
12326904), (50215681, 12286376), (50216959, 12334534), (50218809, 12162983), (50219009, 6171775), (50219778, 6166496),
(50219781, 12160320), (50220115, 12335069), (50221175, 12293707), (50222770, 12278587), (50224650, 12330656),
(50224694, 6172658), (50224708, 12157281), (50225829, 6176528), (50226111, 12329923), (50227195, 12283159), (50227783,
12330927), (50228923, 12153057), (50230431, 12140470), (50230530, 12145779), (50230691, 12139075), (50230839,
12277571), (50231383, 6174030), (50231832, 12267119), (50231871, 12135512), (50231901, 12331527), (50232623,
12126435), (50233018, 12275192), (50233321, 12264360), (50234508, 12330889), (50235047, 12260146), (50235916,
6179298), (50235960, 12117636), (50236220, 12149513), (50236256, 12349296), (50236354, 12349164), (50236546, 6191665),
(50236836, 12348910), (50237018, 12114360), (50237041, 12351210), (50237312, 12331417), (50237459, 12331711),
(50237557, 6185043), (50237644, 6196686), (50237944, 12109105), (50238294, 6197678), (50239374, 12253947), (50241923,
12251268), (50242090, 12359113), (50242236, 12359174), (50242303, 12356404), (50242849, 12108474), (50244209,
6203042), (50244808, 12242791), (50245554, 12240322), (50246149, 12100369), (50246281, 6204749), (50248078, 12354646),
(50248827, 12093708), (50249866, 6206469), (50250178, 12265911), (50250395, 12092111), (50250402, 12264072),
(50250929, 12245200), (50250935, 12242896), (50250957, 12260701), (50253887, 12350903), (50253999, 6212921),
(50254503, 12099826), (50255229, 12101551), (50256006, 12266128), (50256332, 6218895), (50256405, 6221412), (50256449,
12248872), (50259481, 12351895), (50259686, 6230834), (50260037, 12100747), (50261299, 12261456), (50261691, 6239115),
(50262493, 6236089), (50262787, 12260221), (50262955, 6247519), (50263120, 12101767), (50263306, 6248740), (50264893,
6266750), (50265010, 6263326), (50265057, 12357062), (50265536, 12108539), (50266047, 6276883), (50266531, 12118834),
(50266919, 12119976), (50268171, 12246860), (50268255, 12255954), (50268684, 12244470), (50269268, 12360285),
(50269389, 12234868), (50270120, 12213163), (50270384, 12221393), (50270448, 6282080), (50270700, 12361550),
(50270753, 6282394), (50270966, 12130064), (50271191, 12208948), (50272623, 12360383), (50274197, 12200204),
(50274758, 12200684), (50274968, 12138110), (50276201, 12139140), (50276271, 6290803), (50277158, 12362472),
(50278983, 12138268), (50280983, 6289875), (50281780, 12369208), (50281994, 12135511), (50282227, 6288303), (50283455,
12201878), (50283753, 12370096), (50286215, 12201637), (50286479, 12129738), (50287377, 12378806), (50287458,
6285952), (50287586, 12379260), (50287835, 12128007), (50289453, 12390312), (50289907, 12201163), (50292204,
12397587), (50292514, 12398260), (50292560, 12196200), (50293602, 6285876), (50293649, 12122644), (50295029, 6290014),
(50296762, 12121458), (50297577, 12196691), (50298353, 12400564), (50299425, 12119692), (50299778, 6295602),
(50301862, 12121823), (50302265, 6297776), (50303258, 12198766), (50303856, 12401426), (50305024, 12124400),
(50305180, 6295758), (50305187, 6363375), (50307144, 6358729), (50307270, 6297096), (50307694, 6358165), (50307962,
12398327), (50308014, 6360548), (50308849, 12200535), (50309569, 6306546), (50309635, 12398605), (50309753, 12122204),
(50309921, 12193382), (50310390, 12398446), (50310785, 12119969), (50311127, 6308822), (50312450, 6370211), (50312653,
6349373), (50313229, 6360019), (50313278, 12113322), (50313534, 6348962), (50313679, 6367856), (50314197, 12184846),
(50314947, 12184815), (50315006, 6376345), (50315136, 12104091), (50315137, 12400204), (50315227, 12124940),
(50316318, 12127117), (50316490, 6334631), (50316713, 12113839), (50316900, 6306580), (50316965, 12102678), (50317491,
12113781), (50318131, 6335796), (50318134, 6340778), (50318748, 12132294), (50319160, 6317653), (50319439, 12399041),
(50319984, 6381066), (50320391, 12140942), (50320690, 12184961), (50320937, 12397980), (50321033, 6389482), (50321071,
6322464), (50321352, 12154710), (50321504, 12163154), (50321564, 6393822), (50321576, 12145478), (50321841, 12168840),
(50322120, 12399995), (50322678, 12421232), (50322719, 12430962), (50323177, 6403843), (50323212, 6325810), (50323232,
12409035), (50323479, 6332739), (50325744, 12433799), (50327026, 12435610), (50328865, 6406758), (50331199, 12436806),
(50331978, 12435375), (50333522, 6407704), (50337316, 12439424), (50337717, 6401239), (50338267, 6400421), (50342541,
12443829), (50343524, 6400293), (50343840, 12445554), (50344617, 6399789), (50346833, 12482700), (50347007, 12483938),
(50347129, 12480833), (50347951, 12453913), (50348053, 12457223), (50349563, 6391689), (50350720, 6389418), (50352381,
12490700), (50352530, 12490936), (50352765, 12472659), (50353002, 12472316), (50353367, 6380958), (50353904, 6379676),
(50353999, 6382276), (50357800, 12490801), (50358124, 6370743), (50358202, 12490397), (50359203, 6367570), (50363990,
12487408), (50364876, 6366385), (50369758, 12486437), (50370322, 6361758), (50370822, 6361358), (50374927, 6351895),
(50375760, 12490183), (50375813, 6351179), (50377051, 12492233), (50380816, 12497418), (50381063, 6343346), (50385231,
12501805), (50386415, 12502517), (50387650, 6351161), (50391917, 12509468), (50393730, 6357529), (50394168, 12511408),
(50396580, 12521453), (50397013, 12529198), (50397120, 12707115), (50397339, 6359645), (50397351, 12515876),
(50397608, 12530054), (50398451, 12542066), (50398503, 12707446), (50398803, 6361596), (50398865, 12553509),
(50399333, 12556361), (50400742, 12708310), (50400875, 12696868), (50401510, 12565681), (50401710, 12566803),
(50403192, 12708427), (50403296, 12574766), (50403616, 12695419), (50404015, 12946253), (50405234, 12940479),
(50405604, 12597397), (50405686, 6367988), (50405998, 12690609), (50406379, 12601896), (50406553, 12594381)]

/-- borders.go:4025-4470 -/
def border9 : List (Nat × Nat) := [
(50406968, 12583577), (50407004, 12586171), (50407131, 12947690), (50407460, 12940970), (50408837, 12708416),
(50409240, 12709061), (50409595, 12681877), (50410025, 12681212), (50410511, 12646923), (50410621, 12644080),
(50410652, 12649080), (50410713, 12644866), (50411175, 6369586), (50411230, 12655603), (50411776, 12609752),
(50412191, 12610804), (50412782, 12944927), (50412790, 12637448), (50413239, 12933376), (50413453, 12664993),
(50413784, 12950699), (50414182, 12930737), (50414344, 12716441), (50414350, 12960277), (50415380, 12622304),
(50415502, 12676053), (50415729, 12718300), (50415843, 12670183), (50416037, 12968857), (50416987, 12923747),
(50417452, 12976041), (50417572, 6367402), (50418183, 12977828), (50419356, 12920189), (50419751, 12725826),
(50420938, 12727732), (50421479, 12987111), (50422150, 12905902), (50422682, 12914034), (50422760, 12987928),
(50422997, 6369554), (50425442, 12731393), (50427631, 12897449), (50428520, 6373670), (50428548, 12990900), (50430898,
12810496), (50431701, 12888396), (50432102, 12734222), (50433450, 12807999), (50433628, 12739462), (50434028,
12996318), (50434190, 12811347), (50434219, 12997058), (50434266, 6376334), (50434640, 12806999), (50435808,
12880008), (50435840, 12747753), (50436127, 12748776), (50438095, 12755962), (50438535, 13006522), (50439189,
13007757), (50439225, 12869779), (50439633, 6377387), (50439970, 12807811), (50440770, 12765883), (50441246,
12767782), (50442280, 12799909), (50442808, 12861832), (50443343, 12775711), (50443528, 13015643), (50444190,
12858513), (50444682, 13017687), (50445469, 6376397), (50445592, 12809498), (50445813, 12854117), (50445832,
12810026), (50446227, 12784921), (50446732, 12796873), (50446857, 12786910), (50450115, 13021528), (50451109,
12843661), (50451110, 12817535), (50451760, 6374381), (50453850, 6362826), (50454178, 12836761), (50454387, 6361711),
(50455845, 13022085), (50456158, 6354431), (50456387, 12830646), (50456604, 6352441), (50456922, 12819216), (50456988,
12828181), (50461033, 6343071), (50461569, 13019809), (50466465, 6342583), (50467303, 13018856), (50467347, 6343138),
(50472023, 6338989), (50472957, 13020719), (50477742, 6340937), (50478660, 13021068), (50483040, 6341337), (50483658,
6341763), (50484283, 13022636), (50488063, 6349986), (50489109, 6336632), (50489361, 6344109), (50489909, 13024947),
(50492733, 6331334), (50494324, 6226578), (50494686, 6321124), (50495622, 13028291), (50496201, 6228846), (50496926,
13029050), (50497457, 6297556), (50497757, 6233334), (50497784, 6221425), (50498199, 6291953), (50498714, 6261399),
(50498837, 6285215), (50499092, 6241425), (50499130, 6255405), (50499140, 6301830), (50499455, 6312892), (50500012,
13077262), (50500224, 13085336), (50500546, 13073978), (50500646, 13064805), (50501149, 13032474), (50501249,
13056100), (50501464, 6309000), (50501465, 6222515), (50502166, 13092246), (50502420, 6274850), (50502518, 6248422),
(50502766, 6253097), (50502903, 13101351), (50502903, 13177908), (50503217, 13193860), (50503385, 13182301),
(50503575, 6268386), (50504568, 13105597), (50505624, 13142621), (50505864, 13167854), (50506218, 13051601),
(50506376, 13136709), (50506573, 13163900), (50506810, 13196749), (50506839, 13030990), (50507133, 6216536),
(50507361, 13146569), (50507880, 13110917), (50508256, 13155832), (50508289, 13154981), (50508769, 13047646),
(50508965, 13137688), (50509816, 13115307), (50512555, 6213174), (50512603, 13195683), (50512857, 13137808),
(50513070, 6211299), (50514142, 13120908), (50514766, 13134298), (50515101, 13123475), (50518145, 13199866),
(50518334, 6207510), (50518749, 13201314), (50520855, 6202028), (50521073, 6193069), (50523587, 13208339), (50523762,
6190342), (50523829, 6206110), (50526594, 6202009), (50528732, 6189307), (50529150, 13209259), (50529411, 6197134),
(50531780, 13211475), (50534619, 13215646), (50535170, 6198315), (50538094, 6191460), (50540328, 13219463), (50540338,
6197868), (50540513, 6187788), (50541103, 6180313), (50541646, 13221278), (50542531, 6200813), (50545835, 13221656),
(50545880, 6178281), (50546675, 6207561), (50550183, 6208914), (50551262, 13229238), (50552675, 6209876), (50553589,
6178508), (50554521, 6222321), (50556161, 6226241), (50556391, 6174083), (50557119, 13224818), (50559184, 6226707),
(50560692, 6181377), (50562285, 13222952), (50562620, 6184019), (50562933, 13222785), (50563589, 13223210), (50564477,
6189340), (50564527, 6231662), (50564724, 6234295), (50567642, 6198067), (50568299, 13231461), (50568804, 13232650),
(50569057, 6202081), (50571366, 6235962), (50573922, 13235434), (50574418, 6206374), (50574929, 13291130), (50575013,
6206080), (50576157, 6207183), (50576968, 6239330), (50577074, 13296233), (50577319, 13296477), (50577544, 13290280),
(50578063, 13233233), (50578871, 13309083), (50579098, 6214826), (50579312, 13287204), (50579538, 13236053),
(50579551, 13314451), (50581436, 6219079), (50581977, 13324067), (50582090, 13324392), (50582292, 6239245), (50583514,
13285097), (50585064, 13240855), (50585749, 13243277), (50587032, 6222506), (50587681, 6238767), (50587771, 13324298),
(50587862, 6241300), (50587948, 13323963), (50587952, 6223680), (50589225, 13283434), (50590775, 13247633), (50592100,
13261264), (50592534, 13279561), (50592658, 13262863), (50593594, 13321591), (50593865, 6246374), (50597173, 6248849),
(50599260, 13320864), (50599879, 6248845), (50600978, 6248297), (50601700, 13464302), (50603938, 13460478), (50604577,
13325819), (50604912, 13326055), (50605265, 6249798), (50605336, 13466615), (50605827, 13452114), (50605860,
13451279), (50606451, 13325704), (50607390, 13334986), (50607433, 13469903), (50608445, 6257603), (50610094,
13442682), (50610176, 13335967), (50610224, 13433105), (50610741, 13474102), (50611710, 6261974), (50612542,
13425703), (50612672, 13425243), (50613261, 13344641), (50614658, 6265183), (50615281, 13353011), (50615676,
13353943), (50615892, 13416189), (50616145, 13479441), (50616451, 13479796), (50617707, 6268177), (50617846,
13364577), (50618736, 13412248), (50620337, 13368686), (50621507, 13487278), (50622301, 13489311), (50623516,
6269624), (50623810, 6181790), (50624496, 13409802), (50625176, 6183701), (50625289, 13372609), (50625385, 6177495),
(50625900, 13373656), (50626087, 6236646), (50626137, 6237139), (50626240, 6185126), (50626683, 6249471), (50626818,
13408407), (50626895, 13495530), (50626934, 6255103), (50627568, 6230665), (50627759, 6272784), (50629301, 6274017),
(50629349, 6225488), (50630317, 13406488), (50631039, 6210832), (50631285, 6182339), (50631370, 6207953), (50631618,
6199800), (50631704, 13374826), (50631760, 6199331), (50632080, 6204665), (50632255, 13500384), (50632525, 13501374),
(50632759, 6181771), (50633167, 6271512), (50635155, 13508685), (50635885, 6270458), (50636450, 13401120), (50636671,
13517941), (50637021, 13400214), (50637288, 13373733), (50637391, 13373587), (50637419, 13518887), (50637562,
6175060), (50639306, 6203654), (50639531, 6191337), (50639534, 6172346), (50639622, 6189911), (50639946, 6210924),
(50640294, 6220022), (50640420, 6247733), (50640998, 6244019), (50641071, 6266697), (50641422, 6254546), (50642232,
13392578), (50642497, 6184325), (50642964, 13373933), (50643027, 13523481), (50643070, 6167584), (50643593, 13392241),
(50644097, 6172781), (50644229, 6226151), (50644278, 6225850), (50644790, 6236999), (50644808, 13383157), (50648201,
13517869), (50648384, 6185398), (50648704, 13376836), (50648800, 13521157), (50648814, 13372013), (50649043,
13516732), (50653987, 6190661), (50654071, 6179602), (50655061, 13513846), (50656918, 6195241), (50658951, 6169438),
(50659874, 6168228), (50660340, 13520072), (50662284, 6175046), (50662615, 6195195), (50663018, 6182369), (50664902,
6164043), (50665702, 13526683), (50667577, 13539368), (50667631, 13537813), (50670330, 6162829), (50671021, 13539875),
(50672192, 6159251), (50672830, 13538783), (50675510, 6154824), (50676465, 13542750), (50677621, 6149270), (50681589,
6144115), (50682172, 13541945), (50686892, 6142220), (50688058, 13540888), (50688592, 13540313), (50692227, 6139179),
(50694317, 13535088), (50696651, 13532045), (50698812, 6133187), (50700071, 13526524), (50702613, 6128569), (50705546,
6125094), (50705601, 13536567), (50705925, 13532826), (50709496, 6124994), (50709807, 13543021), (50710031, 13601857),
(50710641, 13544460), (50711141, 13597004), (50711453, 13606193), (50712278, 13568726), (50712350, 13578630),
(50712358, 13579443), (50713525, 13616028), (50713624, 13614364), (50713727, 13552293), (50714241, 6121881),
(50715177, 13624981), (50716680, 13706747), (50716915, 13705758), (50718307, 13693286), (50718333, 6039585),
(50718921, 13626544), (50719461, 6037572), (50719648, 13687717), (50719890, 6118763), (50720323, 6094798), (50720968,
6073207), (50721083, 6076648), (50721107, 13711376), (50721141, 13624994), (50721445, 6085921), (50722153, 6042441),
(50722233, 6036733), (50722749, 13683089), (50723132, 6106768), (50723151, 6063372), (50724118, 13828133), (50724284,
13632814), (50724761, 13636138), (50725099, 6054029), (50725174, 13843340), (50725544, 13841364), (50725611,
13678729), (50725901, 13824023), (50726675, 13850341), (50726731, 13716368), (50726968, 13854972), (50727278,
13740558), (50727578, 13743423), (50727710, 6033904), (50727929, 6044274), (50727978, 13815231), (50728278, 13814788),
(50728379, 13673360), (50729549, 13643347), (50729571, 13647829), (50729574, 13670791), (50730107, 13734105),
(50730547, 13653175), (50730787, 13752676), (50731633, 13732404), (50731956, 13725062), (50732260, 13859756),
(50732616, 13790798), (50732946, 13771350), (50732965, 13768940)]

/-- borders.go:4471-4916 -/
def border10 : List (Nat × Nat) := [
(50732999, 13800659), (50733471, 6034223), (50733602, 13785248), (50734733, 13861222), (50734970, 13790255),
(50734972, 6036067), (50734998, 13788604), (50735541, 13779742), (50737681, 13880319), (50738006, 13861856),
(50738020, 13877810), (50738550, 13861359), (50739478, 6040432), (50741006, 13889176), (50742153, 13893953),
(50744800, 13898520), (50745461, 6040453), (50747437, 13899434), (50747798, 6028174), (50750195, 6029030), (50752124,
6024530), (50752998, 13902776), (50755268, 13898821), (50755522, 6020660), (50759330, 13894756), (50761072, 6018963),
(50761990, 13891132), (50765080, 13888543), (50767395, 6022142), (50768772, 6023252), (50770915, 13887461), (50772853,
6026730), (50774206, 13892483), (50776032, 6022168), (50776475, 13892955), (50778123, 6017660), (50779988, 6012866),
(50781885, 13897335), (50783297, 6005568), (50783996, 6002827), (50787592, 13896896), (50788522, 13928519), (50788700,
5995773), (50788856, 13930253), (50789137, 13918317), (50790141, 13939422), (50791098, 5993559), (50791358, 13940961),
(50791704, 13912287), (50792967, 13906237), (50793143, 13900352), (50793863, 5985715), (50794770, 5984072), (50796834,
13948363), (50797516, 13949698), (50799160, 5975213), (50801462, 6003629), (50802164, 13955609), (50803346, 6000432),
(50804193, 14031236), (50804201, 14031442), (50804415, 6010564), (50804496, 14033768), (50804756, 14028014),
(50805032, 5977974), (50805877, 5995007), (50806681, 6013132), (50807885, 5991580), (50807924, 13955261), (50809244,
14022711), (50809863, 14062304), (50810049, 14047385), (50810126, 13960083), (50810243, 14003541), (50810299,
14039474), (50810415, 14004969), (50810681, 14050492), (50810816, 14072372), (50810915, 14017429), (50811054,
13968994), (50811071, 6019077), (50811157, 14013345), (50811508, 14003295), (50812348, 14077951), (50812697, 6022290),
(50813019, 13974568), (50814148, 14077980), (50814216, 13978394), (50815156, 14077856), (50817168, 13996539),
(50817607, 13994834), (50817925, 13987671), (50818403, 6023723), (50819210, 14766458), (50819577, 14766896),
(50819720, 14080758), (50819962, 14779249), (50819996, 14792983), (50820325, 14794057), (50820874, 14764290),
(50822063, 14722344), (50822463, 14726232), (50822836, 14720987), (50824261, 14749906), (50824642, 14801177),
(50824852, 14731191), (50824953, 14086980), (50825104, 6023956), (50825137, 14749236), (50825457, 14088441),
(50826203, 14097828), (50827023, 14747947), (50827530, 14737536), (50828933, 14716580), (50829383, 14110712),
(50829572, 14110392), (50829695, 6018769), (50829967, 14106200), (50830194, 14801129), (50832165, 14116104),
(50833864, 14131433), (50834458, 14133875), (50834542, 14718252), (50834861, 14134579), (50835560, 6017356),
(50835900, 14802799), (50837491, 14714277), (50838002, 14689956), (50838841, 14687126), (50839005, 14697896),
(50839539, 14142610), (50839826, 14805638), (50840574, 14144229), (50840615, 14708854), (50841108, 14805969),
(50841699, 6017120), (50842090, 14681090), (50842988, 14153852), (50843592, 14678658), (50844989, 14156778),
(50846538, 6074171), (50846928, 14808382), (50847034, 14670099), (50847161, 14167196), (50847238, 6026033), (50847710,
14172539), (50848394, 14666773), (50848527, 14651582), (50848711, 14653168), (50848776, 6067532), (50848954, 6067044),
(50849056, 14181819), (50849137, 14656284), (50849260, 14182737), (50849627, 14191031), (50849660, 14645586),
(50849941, 6032440), (50850943, 6059418), (50851143, 14200049), (50851164, 6041335), (50851308, 14643707), (50852455,
14812292), (50852619, 6075460), (50853758, 14206779), (50853808, 6048520), (50854211, 6050044), (50854427, 14634598),
(50855445, 6076047), (50855790, 14817075), (50855988, 14209367), (50856040, 14629409), (50856743, 14626376),
(50857957, 14818384), (50858478, 6076751), (50859087, 14223505), (50859089, 14214949), (50860788, 6077318), (50862258,
14619426), (50863210, 14821417), (50865398, 14228760), (50867304, 6085123), (50867888, 14623707), (50868745,
14825127), (50870072, 14232919), (50873414, 6087291), (50873634, 14626005), (50874338, 14819254), (50875101,
14818893), (50876053, 14235907), (50878474, 6087208), (50879524, 14628994), (50880866, 14629854), (50880933,
14817605), (50881225, 6083193), (50881395, 14236674), (50883915, 14302793), (50883927, 14304752), (50884125, 6079211),
(50884496, 14632490), (50885102, 14292458), (50886389, 14820557), (50886397, 14244164), (50887058, 14821198),
(50887091, 14312791), (50887406, 14239851), (50887768, 14250673), (50888608, 14318642), (50889046, 14322258),
(50889357, 6076343), (50889747, 14285450), (50890138, 14634765), (50890220, 14335817), (50890227, 14285097),
(50890836, 14259350), (50891256, 14340514), (50891307, 14260180), (50891586, 14828003), (50892981, 14349277),
(50893533, 14276679), (50893805, 14831398), (50895080, 6076477), (50895140, 14350267), (50895907, 14635837),
(50896214, 14373848), (50896733, 14837083), (50896933, 14368279), (50897333, 14374968), (50897637, 14380574),
(50897941, 14361343), (50898207, 14356573), (50898758, 14349213), (50898982, 14386905), (50899549, 14841617),
(50901039, 14641380), (50901275, 14641804), (50901304, 6078713), (50902109, 14844897), (50902614, 14385955),
(50903087, 14387335), (50904954, 14651202), (50906497, 14652689), (50906694, 6080102), (50907800, 6080560), (50908046,
14849159), (50908181, 14388504), (50909867, 14387857), (50910476, 14851524), (50912164, 14651617), (50912819,
6086744), (50912921, 14858084), (50913536, 14581957), (50913940, 14386767), (50915109, 14579441), (50915309,
14861283), (50915533, 14585682), (50915713, 6088690), (50915934, 14577887), (50916324, 14389086), (50916346,
14593385), (50917423, 14570194), (50918187, 14868389), (50918525, 6089436), (50918906, 6088232), (50919277, 14394393),
(50919304, 14598365), (50920499, 14600755), (50920653, 6068184), (50921441, 14607953), (50921623, 6058858), (50921681,
14652034), (50921929, 6070030), (50921984, 14871276), (50922531, 14562506), (50923040, 14399257), (50923338, 6054502),
(50923368, 14562217), (50923597, 14871776), (50924632, 14401668), (50925355, 14652248), (50925360, 14625454),
(50925409, 14626834), (50925574, 14617086), (50928080, 6045582), (50928193, 14564306), (50928526, 6053474), (50928596,
14635710), (50929462, 14650592), (50929599, 14875012), (50930070, 14399286), (50930120, 14639110), (50930330,
6041502), (50930501, 14399355), (50931788, 14399902), (50932429, 6030276), (50932985, 6027314), (50933320, 14881805),
(50933793, 14568084), (50933896, 6022466), (50934737, 14888250), (50935456, 14891484), (50936379, 14396982),
(50938133, 14374218), (50938256, 14573396), (50938297, 14373408), (50938617, 14391525), (50938968, 14575418),
(50939062, 6017169), (50940067, 14895917), (50941394, 14362860), (50943907, 14358175), (50944338, 14582627),
(50944499, 14355876), (50944508, 6015879), (50945336, 14583329), (50946348, 14895562), (50946567, 14346994),
(50948910, 14333956), (50949505, 14326583), (50950190, 14893042), (50950221, 14585105), (50951306, 14320199),
(50951582, 14319106), (50952643, 6016853), (50953065, 14895437), (50954060, 14311493), (50954466, 6011534), (50955214,
6009384), (50955660, 14589375), (50957377, 14315543), (50957497, 14896755), (50960133, 6011271), (50961001, 14593856),
(50961274, 6014065), (50961468, 14312419), (50961749, 14903942), (50961846, 14594871), (50961989, 14903044),
(50963633, 14305557), (50964776, 14303477), (50966743, 14592235), (50966968, 6018246), (50968233, 14595431),
(50968949, 6019455), (50969056, 14904062), (50969228, 14309885), (50972142, 14320352), (50972212, 14596998),
(50972236, 14325164), (50972255, 14906945), (50972794, 6022081), (50973031, 14912266), (50973723, 14915477),
(50973927, 14328941), (50974553, 5904695), (50974765, 5899736), (50975826, 5909577), (50976919, 14285699), (50977657,
14287278), (50977747, 5918554), (50977964, 14599543), (50978280, 14918736), (50978788, 14296481), (50978894, 5894240),
(50979380, 5968046), (50979391, 6025709), (50980018, 14326248), (50980458, 5973591), (50980921, 5925331), (50981082,
14302459), (50981838, 14278120), (50981991, 14305986), (50982110, 14277547), (50982115, 5984222), (50982285, 5927651),
(50982397, 5978328), (50982416, 5992644), (50982794, 5961394), (50982836, 6003889), (50983068, 5982243), (50983251,
6013771), (50983569, 14598802), (50984145, 14269799), (50984269, 14918736), (50984341, 5899513), (50984543, 5899810),
(50984544, 14316311), (50985557, 5935705), (50986816, 5946717), (50986842, 14260923), (50986896, 14596185), (50987564,
5955737), (50988836, 14258476), (50990259, 14917299), (50990300, 14588281), (50990473, 5903960), (50994263, 14262148),
(50994448, 14917138), (50995606, 14917450), (50996106, 14580714), (50996245, 5904371), (50996587, 14918695),
(50996813, 14926859), (50997079, 14580133), (50999826, 14268672), (51000690, 14930464), (51001966, 14574630),
(51002172, 5905518), (51002790, 14572407), (51003448, 14262882), (51003742, 14534755), (51003816, 14536246),
(51003869, 14536800), (51004056, 14534488), (51004275, 5896542), (51005084, 14545450), (51005835, 14261508),
(51006293, 14934942), (51006975, 14561047), (51007312, 5895584), (51008156, 14265351), (51008224, 14566824),
(51008520, 14561518), (51009774, 14537100), (51011146, 14273068), (51011162, 14937922), (51011724, 14938062),
(51012782, 5890909), (51013382, 5884262), (51013485, 14537135), (51015644, 14533254), (51016291, 14281116), (51017320,
14528592), (51017733, 14938612), (51017963, 5878808), (51018765, 14413327), (51018769, 14410014), (51019056,
14419838), (51019236, 14519830), (51020339, 14510803), (51020510, 14939700), (51020918, 14424699), (51021173,
14501358), (51021874, 14401565), (51022090, 14281175), (51022091, 14400766), (51022878, 14429513)]

/-- borders.go:4917-5362 -/
def border11 : List (Nat × Nat) := [
(51023099, 14939095), (51023140, 14941915), (51023323, 14499046), (51023412, 14492717), (51023520, 14486903),
(51023532, 14392621), (51023655, 5876774), (51023953, 14483881), (51024245, 14283805), (51025067, 5876424), (51025539,
14474413), (51026287, 14434107), (51027487, 14286375), (51027797, 14384272), (51028351, 14947785), (51028521,
14439383), (51028639, 14500671), (51028758, 14383201), (51028969, 14493111), (51029205, 5874600), (51029995,
14472936), (51030579, 5875947), (51031468, 14443736), (51032478, 14284498), (51033434, 14282860), (51033948,
14448900), (51034346, 14467005), (51034355, 14948524), (51034374, 14503354), (51034385, 14383482), (51034714,
5957622), (51034734, 14494265), (51034861, 14503806), (51034871, 5957074), (51035066, 5877675), (51035117, 5938129),
(51035325, 5939183), (51037484, 14951790), (51037524, 14276106), (51038287, 5936375), (51038492, 14340143), (51038513,
14339882), (51038551, 14286498), (51038625, 14374036), (51038794, 5959062), (51038997, 5874818), (51039008, 14287719),
(51039115, 14284120), (51039621, 14273782), (51039865, 14506604), (51040447, 14948114), (51040632, 14492332),
(51040719, 14371475), (51041588, 5872246), (51041979, 14349218), (51042195, 14349770), (51042306, 14951561),
(51042579, 14367872), (51042614, 14331955), (51042946, 14331439), (51043301, 5932374), (51044058, 5965787), (51044076,
14504342), (51044449, 14291614), (51044975, 5967876), (51045209, 14953086), (51045791, 14501779), (51046065, 5867488),
(51046518, 5928577), (51048473, 14326968), (51048644, 14295794), (51049174, 14961699), (51049999, 14295956),
(51050081, 5925491), (51050511, 14964855), (51050857, 5968215), (51051066, 14322700), (51051473, 5875188), (51051988,
5882870), (51052903, 5890560), (51053128, 5892000), (51054468, 5923480), (51054637, 14318128), (51054865, 14307809),
(51055145, 14308984), (51056600, 5969509), (51056637, 14963681), (51059387, 5900695), (51060904, 5920427), (51062906,
5973162), (51064026, 14967596), (51064116, 5909161), (51065917, 5915033), (51067370, 14969979), (51068996, 5980896),
(51070456, 5980605), (51072828, 14972055), (51074520, 14974784), (51074608, 5988402), (51076150, 5989455), (51078671,
14978282), (51080325, 5992713), (51084246, 5997794), (51084258, 14976103), (51086792, 6003825), (51088384, 6006273),
(51089856, 14982741), (51092161, 6015254), (51092826, 6016108), (51093376, 6023931), (51095314, 14982318), (51095516,
6033562), (51100215, 6041191), (51101225, 14984310), (51104632, 6049933), (51105840, 6051836), (51107149, 14978386),
(51108545, 14979773), (51112453, 14982243), (51113315, 6057372), (51115926, 6060293), (51116930, 14989821), (51117951,
6071347), (51118035, 6067293), (51118170, 14991336), (51119095, 6075634), (51123130, 14997605), (51124252, 6080010),
(51124516, 6086603), (51129399, 14995401), (51130917, 6089318), (51134757, 6092670), (51136262, 14995630), (51136308,
6103296), (51136615, 6102268), (51137801, 6110141), (51140217, 6118995), (51141132, 14991517), (51143205, 6122631),
(51143350, 14994103), (51144741, 6129994), (51145678, 6136707), (51146913, 14998553), (51147751, 6145835), (51147884,
6154751), (51151801, 15000004), (51151818, 6163027), (51152890, 6164461), (51157257, 6173696), (51157400, 14994555),
(51157992, 14994176), (51161966, 6166600), (51162917, 6164265), (51164339, 14997746), (51165364, 6158252), (51167494,
6153089), (51167788, 6152386), (51169744, 15004607), (51169833, 6099686), (51170355, 6089997), (51170448, 6090033),
(51170713, 6088105), (51170907, 6100778), (51172109, 6141981), (51172273, 6106454), (51173339, 6138802), (51174585,
15003663), (51174704, 6143191), (51176751, 6078807), (51176999, 6115005), (51177340, 6115243), (51177599, 6152499),
(51178311, 6077442), (51179363, 6158175), (51180030, 15008170), (51180616, 6162228), (51181666, 6074226), (51181688,
6123888), (51183166, 6170307), (51183740, 6129625), (51184887, 6133695), (51186070, 6179737), (51186101, 15006577),
(51187168, 6072606), (51187420, 6141856), (51188886, 6175846), (51190849, 6153616), (51191578, 15004981), (51192225,
6169400), (51192469, 15009456), (51192870, 6161090), (51193646, 6071807), (51197387, 15014402), (51199171, 15008051),
(51199800, 6071061), (51203274, 15007815), (51204711, 6070487), (51206547, 15010704), (51208778, 15012977), (51209786,
6069893), (51211181, 15010668), (51214145, 15010627), (51214283, 15016104), (51216190, 6068278), (51220298, 15017976),
(51222039, 6083591), (51222083, 6070693), (51222261, 6082437), (51225289, 15017431), (51228918, 6082271), (51229669,
6081735), (51230877, 15023069), (51231015, 15023317), (51233119, 6079301), (51236308, 15027616), (51238661, 6075350),
(51241201, 15034033), (51241815, 15029890), (51241866, 15034638), (51245078, 6079104), (51246357, 6082372), (51247799,
15031947), (51249038, 15025364), (51250154, 6089252), (51251007, 6090478), (51253731, 15024824), (51254307, 15026867),
(51255990, 6097641), (51257017, 6099114), (51257860, 15037411), (51258941, 15038325), (51261154, 15036311), (51262563,
6107088), (51263173, 6107962), (51264480, 15035955), (51265767, 15037743), (51268643, 6115796), (51269392, 6116868),
(51270308, 15036837), (51271208, 15038764), (51274648, 6124386), (51275309, 6124553), (51276916, 15036983), (51280985,
6126551), (51282100, 15035016), (51287159, 6130905), (51287692, 15032065), (51292964, 6138443), (51293583, 6139246),
(51293752, 15033618), (51294234, 15031285), (51299805, 15023848), (51300280, 6147137), (51300384, 15022411),
(51300846, 15013248), (51302877, 6149555), (51305188, 6151712), (51306168, 15013589), (51310684, 15006816), (51311116,
6154237), (51312046, 15006827), (51312419, 6155530), (51312547, 15007276), (51317096, 6159487), (51317905, 15004929),
(51320299, 14998400), (51323020, 6162088), (51324539, 14992366), (51325492, 6164138), (51328848, 14987473), (51329357,
6169358), (51330514, 14985733), (51333057, 6174132), (51333801, 14982492), (51333917, 6180719), (51334669, 6192354),
(51335440, 6193634), (51336817, 14980561), (51341253, 6192995), (51343214, 14977508), (51345295, 6200057), (51349209,
6206906), (51351084, 14977006), (51353882, 6215083), (51354131, 14975800), (51354685, 6216490), (51356400, 14976504),
(51358895, 6223864), (51359361, 14967031), (51359818, 14972695), (51360336, 6226387), (51360411, 14965584), (51365356,
14976935), (51365682, 6224126), (51366216, 14977974), (51369073, 6222690), (51370881, 14980931), (51370955, 6221889),
(51375320, 14978877), (51377842, 14975084), (51378891, 14970283), (51379206, 6218383), (51382569, 6216952), (51383591,
14967002), (51388113, 6215480), (51389072, 14965173), (51394043, 6220567), (51394495, 14963051), (51394918, 14962238),
(51397453, 14968018), (51399520, 6205257), (51400268, 6226668), (51400397, 14968560), (51400584, 6219323), (51405419,
6206889), (51405805, 14964225), (51407143, 14963593), (51411646, 6208610), (51412269, 14964586), (51414226, 6209324),
(51416310, 14966957), (51416664, 6210000), (51417549, 14967024), (51420505, 14966325), (51423316, 6211847), (51423724,
14964210), (51429233, 6213486), (51429768, 14959416), (51430824, 14958694), (51432076, 14969485), (51433881, 6214761),
(51435130, 14972522), (51440718, 14974103), (51441262, 6214280), (51444390, 14969505), (51445449, 6214003), (51446646,
6220593), (51446877, 14965962), (51451467, 6220256), (51453383, 14962561), (51454537, 14960869), (51457102, 6220715),
(51459093, 14955665), (51462223, 6222143), (51462804, 6222166), (51464235, 14955713), (51465389, 14954340), (51468715,
6223676), (51470351, 14949743), (51472051, 14945640), (51472717, 14935519), (51473115, 14927186), (51474669, 6223542),
(51477768, 14925318), (51479956, 6221294), (51481994, 14897941), (51482143, 14902283), (51482908, 14918773),
(51483622, 6219644), (51483763, 14916107), (51483992, 14907407), (51484032, 14892290), (51484718, 14872160),
(51485443, 14875863), (51485483, 14890247), (51485556, 6217557), (51485821, 14877667), (51486099, 14869414),
(51489360, 14853467), (51490029, 14856913), (51491308, 6212764), (51492829, 14846618), (51493783, 14845469),
(51496738, 14838950), (51497777, 6213574), (51499242, 14837290), (51502913, 6214195), (51504499, 14829963), (51505949,
14812978), (51506039, 14812020), (51506168, 14814258), (51506347, 14811350), (51508801, 6213219), (51513848,
14805714), (51514881, 14803831), (51515056, 6210764), (51517039, 14788312), (51517663, 14776964), (51517726,
14785576), (51518929, 14765260), (51519584, 6207255), (51520376, 6206513), (51520510, 14762765), (51521749, 14752276),
(51523769, 14745715), (51525257, 6201924), (51525294, 14740086), (51528795, 14734268), (51530092, 6194933), (51531024,
14729431), (51531139, 6192944), (51534511, 6186291), (51535764, 14729086), (51535983, 6182891), (51538556, 6176902),
(51539555, 14726485), (51541599, 6174752), (51545101, 14731186), (51548008, 6170206), (51550908, 14728218), (51552304,
14725673), (51552769, 6166826), (51554671, 14717162), (51555440, 6164927), (51558018, 6163102), (51561462, 14711652),
(51563534, 6159177), (51564161, 14713048), (51568018, 6153403), (51569026, 6150888), (51570583, 14720028), (51572512,
6143615), (51574771, 14726729), (51575246, 6139170), (51577944, 6135142), (51580549, 6131354), (51581589, 14729824),
(51586387, 6126436), (51586892, 14733828), (51589241, 6124212), (51590707, 14739746), (51590828, 6122973), (51592237,
14741149), (51595090, 14750977), (51595259, 6114076), (51596149, 14752569), (51596319, 6111808), (51600110, 6103650),
(51601620, 6100514), (51602053, 14760391), (51603280, 14761983), (51603934, 6095559), (51606760, 6091680), (51607398,
14764934), (51612607, 6093623), (51613039, 14764934)]

/-- borders.go:5363-5808 -/
def border12 : List (Nat × Nat) := [
(51618431, 14763561), (51620136, 14762683), (51620437, 6094105), (51620883, 6097229), (51624468, 6100200), (51625553,
14756000), (51627010, 14753776), (51629279, 6102496), (51631074, 14755458), (51631244, 6103379), (51632083, 14755955),
(51635804, 14754498), (51637396, 6106069), (51641688, 14754013), (51641932, 6108041), (51644730, 6111683), (51648122,
6111931), (51648293, 14753490), (51653548, 14751534), (51653835, 6116141), (51655973, 6118088), (51658116, 6099654),
(51658324, 6099058), (51658609, 6098231), (51658957, 6100462), (51659451, 14757356), (51659845, 6089593), (51661490,
6080123), (51663697, 6077921), (51664239, 6070722), (51664954, 14752841), (51666785, 6060520), (51668251, 6054668),
(51669290, 6050524), (51669704, 14750656), (51671496, 14748624), (51671583, 6041357), (51673225, 6036002), (51674056,
6032349), (51676732, 14743476), (51677180, 14740564), (51678725, 6030087), (51683046, 14739322), (51683919, 6032294),
(51684648, 6032170), (51685943, 6031272), (51688252, 14731218), (51688574, 14736252), (51688868, 14733927), (51690286,
6030438), (51690674, 14724129), (51690893, 6030869), (51696147, 6031157), (51696295, 14716381), (51698814, 6029856),
(51700376, 14708271), (51701622, 14706249), (51701911, 6028067), (51706205, 14697670), (51707382, 6026967), (51708774,
14689982), (51711893, 6028576), (51712744, 6037722), (51713291, 6032903), (51713623, 6040909), (51715007, 14683245),
(51717118, 14680634), (51719319, 6039290), (51719456, 6034948), (51720442, 14678857), (51723927, 14674914), (51725010,
6030225), (51726805, 6025974), (51727367, 14667622), (51729417, 14665825), (51729559, 6016249), (51730033, 6015215),
(51732688, 6006984), (51732821, 14664100), (51735205, 6000519), (51737211, 5996249), (51738118, 5955155), (51738504,
5968413), (51738752, 5979192), (51738776, 5978404), (51738895, 5954952), (51739042, 14658591), (51740356, 14656740),
(51744829, 14658524), (51744845, 5952564), (51748995, 14659991), (51750251, 5954093), (51751622, 14657395), (51751875,
5959176), (51754809, 14661075), (51755815, 14663490), (51756650, 5968821), (51759015, 14660668), (51759711, 5976664),
(51760594, 14651841), (51762620, 14650216), (51763071, 5984680), (51763572, 5985580), (51766490, 14653489), (51768390,
14654640), (51769144, 5991619), (51773697, 5982360), (51774048, 14655047), (51774558, 5983223), (51776458, 5984046),
(51778560, 14653534), (51779663, 14652676), (51780300, 5985998), (51784137, 5981766), (51785018, 14652888), (51785805,
5978457), (51789405, 5973156), (51791478, 14646513), (51791737, 5974505), (51796938, 14641547), (51797245, 14637641),
(51797651, 5979065), (51800428, 14623870), (51801376, 5971772), (51801754, 14619941), (51802920, 5969260), (51803458,
14608563), (51804505, 14605719), (51807827, 14602310), (51808103, 5960473), (51810525, 5951462), (51810632, 14600910),
(51813236, 5947012), (51814790, 5952847), (51817527, 14596914), (51819118, 14592941), (51819611, 5952849), (51821262,
5949580), (51822580, 14590696), (51824703, 5946140), (51827263, 6401818), (51827743, 5950378), (51827910, 6406484),
(51829180, 14592479), (51830078, 6395330), (51830615, 5987827), (51830638, 5987057), (51831041, 5954907), (51831256,
5996518), (51831519, 6392388), (51831961, 5981201), (51832070, 6405271), (51832646, 5977461), (51833086, 6003735),
(51833257, 6368723), (51833272, 6368485), (51833853, 6386985), (51833996, 6005683), (51834446, 5959585), (51834705,
14591599), (51835720, 6407418), (51836136, 6362937), (51836788, 5962805), (51837467, 6014664), (51837928, 6407234),
(51839263, 6016451), (51839517, 14603135), (51839787, 14592608), (51839957, 6405005), (51840722, 6166560), (51841876,
6362866), (51841921, 6162195), (51842351, 6032682), (51842703, 6032191), (51843429, 6402406), (51844293, 6152554),
(51844748, 14610337), (51844942, 6149517), (51845166, 14603948), (51845489, 6166055), (51846057, 6040256), (51846080,
6143276), (51846660, 6404436), (51847012, 6041684), (51847384, 6133159), (51847447, 6357839), (51847498, 6357713),
(51847666, 6116909), (51847682, 6114442), (51848384, 6105142), (51848587, 6103660), (51849078, 6306203), (51849317,
6405461), (51850259, 6312155), (51850373, 6347986), (51850493, 6095619), (51850495, 6050289), (51850868, 6338713),
(51851079, 14608350), (51851187, 6305293), (51851213, 6165006), (51851408, 6324581), (51852042, 14607154), (51852354,
6055305), (51853833, 6472511), (51854185, 6468554), (51854599, 6085378), (51854946, 6403462), (51854992, 6403254),
(51856281, 14610518), (51856729, 6302415), (51856862, 6477959), (51857441, 6164333), (51857565, 6459907), (51857603,
6058873), (51857605, 14618509), (51858129, 6485259), (51858527, 6059795), (51858685, 6458315), (51858825, 6487184),
(51859242, 6077211), (51859401, 6432357), (51859746, 6393742), (51860192, 6430948), (51860311, 6392076), (51860920,
6496161), (51861712, 6429210), (51861858, 6441377), (51861946, 6071703), (51861997, 14631129), (51862100, 6438733),
(51862227, 6442290), (51862467, 6300628), (51862592, 6163520), (51862702, 6454251), (51863664, 6160364), (51864626,
6300055), (51864650, 6065647), (51864705, 6502208), (51865847, 6387502), (51866040, 14639144), (51866186, 6150783),
(51866445, 14642214), (51866771, 6420866), (51867075, 6419186), (51867626, 6215057), (51867745, 6148908), (51867805,
6216153), (51868114, 6296339), (51868125, 6261662), (51868457, 6262623), (51868658, 6504776), (51868704, 6225287),
(51868924, 6252652), (51868967, 6241827), (51869137, 6402475), (51869202, 6402052), (51870183, 6206698), (51870436,
6206008), (51870610, 6510857), (51870763, 6289765), (51871722, 6390263), (51871903, 6395346), (51871979, 14646413),
(51872597, 6513627), (51873157, 6268521), (51873261, 14650432), (51873418, 6143808), (51873639, 6523933), (51873886,
6280446), (51874700, 6196038), (51875848, 6193835), (51877171, 6529843), (51877671, 6531786), (51878418, 14652486),
(51879022, 6141840), (51880706, 6185998), (51880893, 6185733), (51881026, 6139893), (51881699, 6556137), (51881724,
6540774), (51882196, 6560337), (51883264, 6542222), (51883724, 6554138), (51883797, 14654834), (51884016, 6560865),
(51884889, 6137894), (51886291, 14660523), (51886494, 6184664), (51886851, 6185990), (51887734, 6568383), (51888256,
14662329), (51888438, 6129209), (51889496, 14673956), (51889784, 6125712), (51890636, 6575998), (51891498, 6120011),
(51891653, 6106331), (51892382, 6186831), (51892780, 6582136), (51892948, 6185189), (51893871, 14673707), (51894244,
6586835), (51894943, 6110176), (51894986, 14679690), (51895718, 6595749), (51896063, 6721970), (51897125, 6603535),
(51897224, 6110367), (51897272, 6726700), (51897283, 6604423), (51897709, 6176246), (51898201, 6125673), (51898510,
14685379), (51898590, 6174635), (51898596, 6165633), (51899337, 6128723), (51899463, 6614199), (51899501, 6715723),
(51900858, 6627695), (51900970, 6632805), (51901004, 14692897), (51901023, 6117390), (51901221, 6712679), (51901259,
6137704), (51901972, 6141290), (51902139, 6735190), (51902856, 6160273), (51903090, 6146872), (51904426, 6637681),
(51904862, 14693506), (51905096, 6705524), (51905535, 6743746), (51905563, 6642187), (51906396, 6703221), (51907807,
6650876), (51908350, 6751949), (51908680, 6752487), (51909833, 14692865), (51910551, 6659933), (51910777, 6660686),
(51911945, 6696932), (51913530, 6668095), (51914313, 6761223), (51914424, 6761650), (51914674, 6695809), (51915735,
6686460), (51916171, 14700482), (51917288, 6684701), (51917483, 6771839), (51920611, 6776236), (51921002, 14702198),
(51924501, 6781704), (51926573, 6784615), (51929657, 6788945), (51930887, 14703394), (51932042, 14704298), (51933271,
6790042), (51937324, 14713592), (51939611, 6795926), (51940901, 6796515), (51942954, 14719559), (51944751, 6796382),
(51949702, 14720275), (51951231, 6797535), (51954774, 14719437), (51956494, 14715044), (51958744, 6798873), (51960295,
6805696), (51961557, 14710393), (51963633, 6813837), (51964105, 6828529), (51967149, 14707368), (51968482, 6831398),
(51968916, 14707255), (51972240, 14706803), (51974345, 6832308), (51976385, 6830257), (51979167, 14706376), (51979563,
14710462), (51980220, 6829764), (51981079, 6829882), (51984208, 14716930), (51986192, 6830352), (51989318, 6828582),
(51989387, 14718296), (51991264, 6827642), (51991361, 14720203), (51994170, 6817833), (51994842, 6809432), (51995075,
14721651), (51996520, 6809603), (51998097, 6811411), (51998700, 14719741), (52001029, 14717231), (52002347, 6802885),
(52004127, 6799311), (52006518, 14721693), (52006983, 14723036), (52007999, 6791537), (52009279, 6788963), (52012742,
6782060), (52012763, 14726201), (52013784, 6779968), (52018063, 6771068), (52018208, 6770125), (52019247, 14734151),
(52022568, 14740712), (52023544, 6761856), (52025021, 6759162), (52028312, 14740015), (52029022, 6750916), (52029305,
6749979), (52030671, 14746315), (52032171, 6740458), (52034098, 14748135), (52034101, 6734027), (52034912, 6731335),
(52037968, 6721218), (52039204, 6717032), (52039856, 6687853), (52039898, 6693534), (52039976, 6703091), (52041228,
14749843), (52043937, 6687966), (52045214, 14747736), (52046539, 14745868), (52049938, 6688137), (52051046, 14746746),
(52052116, 14746220), (52055519, 6686807), (52056749, 14748885), (52059259, 6691729), (52061607, 14757937), (52061985,
6693657), (52063786, 14758958), (52067344, 6696868), (52067829, 14757905), (52070865, 6700649), (52072397, 6710646),
(52073348, 6719425), (52074044, 6728223), (52074258, 6730916), (52074801, 14749926), (52076016, 6737538), (52077047,
14748667)]

/-- borders.go:5809-6254 -/
def border13 : List (Nat × Nat) := [
(52080011, 14747041), (52080919, 6745034), (52081740, 6747142), (52085187, 14741175), (52086153, 14739525), (52086467,
6750755), (52090708, 14730881), (52091801, 6744577), (52092083, 6745189), (52092582, 14726600), (52093006, 6744513),
(52093523, 14724265), (52094863, 6755003), (52095694, 14715039), (52096636, 14705590), (52098199, 6756758), (52099996,
14697139), (52103006, 14692889), (52103964, 6758027), (52107641, 14687439), (52109979, 6759659), (52112421, 14683193),
(52115808, 6760161), (52118404, 6822710), (52118451, 6817173), (52118507, 6807977), (52118513, 14681583), (52118560,
6827363), (52118581, 6796540), (52118620, 6788602), (52118685, 6778061), (52118751, 6765790), (52118867, 6836549),
(52119664, 6847728), (52120417, 6855038), (52124723, 14684121), (52124965, 6862759), (52126626, 6865085), (52129355,
14682496), (52130103, 6872693), (52130461, 14682094), (52131045, 6873343), (52135492, 14680976), (52136799, 6874818),
(52142118, 14679606), (52142594, 6876937), (52147088, 14682741), (52149606, 14685644), (52149779, 6879606), (52151856,
6880397), (52152614, 14689773), (52155904, 6881933), (52157465, 14695944), (52160425, 6888343), (52160653, 6888756),
(52163091, 14701957), (52165707, 6898081), (52166437, 6899497), (52168914, 14705567), (52172457, 6905819), (52174765,
14704755), (52175010, 6906678), (52177597, 6915493), (52178190, 6926043), (52178571, 6934246), (52179178, 6937298),
(52180053, 6943982), (52180658, 14700902), (52182444, 6952898), (52183546, 14697507), (52185564, 6956450), (52187692,
14690379), (52188700, 14688711), (52190891, 6962021), (52192254, 6962131), (52193906, 14685814), (52197894, 6967397),
(52199413, 14690644), (52201975, 6970356), (52203292, 6971357), (52203748, 14699598), (52207479, 14704571), (52209209,
6975971), (52210402, 14707343), (52211956, 6978291), (52215136, 6979676), (52215181, 14710092), (52221089, 6981231),
(52222237, 14712545), (52225052, 7019171), (52225413, 6986873), (52225715, 7026398), (52226595, 7014403), (52226777,
7033651), (52226933, 6989573), (52227043, 6996850), (52227729, 7010199), (52228178, 14712867), (52228304, 7002241),
(52228773, 7042748), (52232219, 7053332), (52232756, 14716029), (52234711, 7061284), (52234993, 7061478), (52236891,
14714603), (52240986, 14708063), (52241235, 7065790), (52242621, 14705963), (52243726, 14705046), (52246760, 7057118),
(52250673, 14700769), (52251258, 7050056), (52252185, 7048603), (52254241, 14695392), (52256019, 14691140), (52256758,
14689475), (52257996, 14679201), (52259288, 7040312), (52260047, 7039808), (52260165, 14668800), (52262494, 14656332),
(52262554, 14651378), (52263860, 14640780), (52265420, 7036242), (52266109, 14633628), (52269459, 7033529), (52270747,
14619520), (52271650, 14613909), (52271811, 14604591), (52273198, 7029337), (52273423, 14595273), (52274333, 7028393),
(52278218, 14590151), (52280180, 7029614), (52282898, 14588256), (52284309, 14586457), (52284985, 7027583), (52286016,
7027002), (52286558, 14578816), (52290418, 14574614), (52291937, 7026452), (52296554, 7029648), (52296923, 14575579),
(52297455, 7030280), (52301659, 14583445), (52305440, 7037079), (52307448, 14584244), (52309410, 14582565), (52310224,
7040538), (52314014, 14577802), (52314319, 7044959), (52315206, 7047421), (52319453, 14577743), (52321009, 7047472),
(52322619, 14574932), (52325890, 14564468), (52327020, 7050337), (52330006, 7053287), (52332081, 14561406), (52333177,
7054918), (52338838, 7057227), (52339391, 14562607), (52342565, 7061486), (52343576, 14559847), (52344963, 7064217),
(52344973, 14558687), (52350447, 7070468), (52350618, 7070659), (52351988, 14552528), (52355138, 14552351), (52356520,
7072050), (52361482, 14553120), (52362421, 7072461), (52363558, 14552678), (52367317, 14552958), (52368008, 7072259),
(52374674, 7071636), (52374719, 14551849), (52379210, 14549002), (52379434, 7069323), (52382872, 14545489), (52384492,
7066857), (52385041, 7066593), (52385703, 14542107), (52391131, 14536729), (52391746, 7062715), (52396285, 7058825),
(52397715, 14534350), (52399925, 7051656), (52400804, 7046899), (52401631, 7044131), (52402148, 14536511), (52402573,
7036449), (52405161, 14539374), (52407100, 7032807), (52408293, 14543038), (52412941, 7028590), (52414038, 14546847),
(52415703, 7026688), (52418443, 7024928), (52419657, 14544946), (52424143, 7019879), (52425505, 14543961), (52426550,
7015490), (52430819, 14546799), (52431664, 7009922), (52435128, 7008735), (52435426, 6941658), (52436636, 6935349),
(52437464, 14555461), (52437641, 6930112), (52438178, 6950215), (52438217, 6927106), (52439102, 6951939), (52439590,
6919939), (52439910, 14563776), (52440180, 14574466), (52440570, 14576374), (52440848, 7006678), (52441763, 6908589),
(52442473, 6958243), (52443232, 6902166), (52443674, 6900416), (52444755, 7005294), (52445806, 6963068), (52445926,
6891512), (52446318, 14583421), (52447793, 6881991), (52448011, 7003640), (52448200, 6879685), (52449829, 6870446),
(52449914, 6852542), (52450089, 6853669), (52450173, 6967101), (52451219, 6967803), (52451422, 14591569), (52452282,
7001339), (52452554, 14593984), (52454813, 6853412), (52457368, 6972409), (52457499, 14598571), (52457929, 6997656),
(52459188, 6844734), (52459374, 6841621), (52459552, 6804488), (52459566, 6795615), (52459570, 6782139), (52459601,
6774587), (52459642, 6810397), (52459706, 6854298), (52459725, 6815899), (52459897, 6827447), (52461740, 6764224),
(52461886, 14605137), (52462075, 6975654), (52462885, 6976066), (52463239, 6756960), (52463613, 6994278), (52463833,
14608761), (52463942, 6994213), (52466333, 6747685), (52467527, 6744969), (52468108, 14611023), (52469220, 6986259),
(52471041, 6737121), (52472698, 6733419), (52475602, 6726933), (52475802, 14612080), (52478132, 6717707), (52478938,
14616141), (52479834, 14618423), (52482484, 6707059), (52483218, 6705235), (52483816, 14626310), (52485514, 14628376),
(52486298, 6697585), (52491484, 14633926), (52494896, 6699354), (52495974, 14635349), (52502352, 14631043), (52503586,
6701260), (52504751, 14627030), (52507352, 6702098), (52507369, 14617055), (52508474, 14615053), (52511646, 6703053),
(52516108, 14610971), (52518270, 6704631), (52518835, 14610490), (52521008, 6705333), (52522318, 14608600), (52524219,
6702903), (52525848, 14606378), (52531328, 6697523), (52533141, 14604178), (52534772, 6694923), (52536842, 6693361),
(52537413, 14606326), (52540301, 6690752), (52543639, 14612944), (52545497, 6686802), (52548525, 6716264), (52549244,
6710995), (52550567, 6701177), (52551545, 6693957), (52552144, 6689535), (52552313, 14614960), (52552485, 6720131),
(52552670, 6720712), (52553317, 6680880), (52555822, 14616902), (52558353, 6723756), (52559039, 6752273), (52559270,
6750533), (52560237, 14624521), (52560774, 6744931), (52561518, 6763724), (52561754, 6734779), (52564814, 14634552),
(52565943, 14636603), (52567607, 6758912), (52568621, 6756982), (52570983, 14639707), (52571597, 6751296), (52573978,
6746758), (52575327, 14636999), (52576631, 14634567), (52576821, 6741334), (52579104, 14628495), (52581257, 6732869),
(52582901, 6729732), (52583114, 14619247), (52584252, 6727153), (52588636, 6718772), (52589540, 14611471), (52592587,
14610443), (52593138, 6719919), (52598002, 14609414), (52599079, 6721399), (52602181, 14605330), (52604599, 14603010),
(52604953, 6723832), (52608086, 14599644), (52610406, 6725082), (52611309, 14593933), (52613855, 14586393), (52614614,
14584885), (52617585, 6725490), (52618455, 14576536), (52619527, 6723862), (52620026, 14575066), (52621720, 6719556),
(52623689, 14567319), (52626781, 6713089), (52627116, 14553122), (52627238, 6710540), (52629453, 6713809), (52632131,
6722833), (52632706, 7039687), (52632825, 14538414), (52633621, 6726790), (52634523, 7036514), (52634896, 7026925),
(52636099, 14528455), (52636416, 7015257), (52637871, 6939058), (52637873, 7048533), (52638024, 7008194), (52638424,
7006832), (52638435, 6941626), (52638819, 6732964), (52638825, 7049769), (52638970, 6953228), (52639454, 6931287),
(52639667, 6734473), (52639820, 6919607), (52639991, 6918771), (52640647, 14512737), (52641281, 6958221), (52641289,
6993253), (52641680, 6967466), (52642269, 6989049), (52642485, 6988287), (52642534, 6970057), (52643420, 7055729),
(52644360, 7055641), (52644523, 6741009), (52645745, 6915018), (52645806, 6753452), (52645975, 6753161), (52646223,
6746079), (52646851, 6767879), (52647035, 14498176), (52647355, 6910824), (52647679, 6819014), (52648182, 6817275),
(52648329, 6769860), (52648576, 6816382), (52648604, 6850989), (52648711, 6826210), (52649209, 6848496), (52649409,
6901333), (52649548, 6856471), (52649777, 6864159), (52650089, 6806717), (52650282, 6844551), (52650531, 6880428),
(52650655, 6794396), (52650751, 6882942), (52650883, 6898845), (52651747, 6778013), (52652805, 14484138), (52655394,
7056048), (52657140, 7056255), (52658209, 14471607), (52659714, 14468174), (52660578, 14466603), (52667600, 14460620),
(52668356, 7057594), (52671561, 14458732), (52672639, 14457960), (52673692, 7058229), (52677791, 14449205), (52678519,
14446836), (52679872, 14436422), (52682651, 14432168), (52684380, 7059505), (52685020, 7059581), (52688514, 14429577),
(52691639, 7060373), (52691735, 14427644), (52695413, 14424117), (52696638, 7060971), (52698081, 14419139), (52700526,
14414838), (52702925, 7061725), (52703334, 14412066), (52709149, 14406779), (52709201, 7062476), (52716381, 14397414),
(52719974, 7063766), (52722287, 14387553), (52726773, 7064575), (52727995, 14382540), (52730043, 14379639), (52731792,
7065081)]

/-- borders.go:6255-6700 -/
def border14 : List (Nat × Nat) := [
(52733972, 14376095), (52737023, 14371820), (52737341, 7065536), (52740224, 14362662), (52741181, 7065851), (52743318,
7066027), (52746740, 14355504), (52748506, 14353899), (52749223, 7066511), (52754781, 7066968), (52754829, 14340174),
(52756636, 14334793), (52759712, 14329317), (52760854, 14325677), (52760913, 7067473), (52762828, 14318030),
(52765430, 14305679), (52766375, 14302709), (52766579, 7067941), (52768582, 14296341), (52771776, 14285655),
(52772804, 14283294), (52773051, 7068475), (52774268, 14280290), (52778707, 7068941), (52779512, 14270454), (52783563,
7069342), (52784756, 14261241), (52787000, 14257297), (52789790, 14252926), (52790276, 7069895), (52792246, 14248850),
(52795632, 7070336), (52796929, 14244002), (52797126, 7070459), (52799029, 14241383), (52801608, 14236345), (52801680,
7070834), (52804451, 14231041), (52807380, 7071302), (52809355, 14226474), (52812192, 14223616), (52813057, 7073558),
(52815502, 14219033), (52816291, 14217608), (52818241, 14209995), (52818668, 7077834), (52819516, 7078481), (52819869,
14190953), (52820789, 14177004), (52821549, 14169238), (52822587, 14159171), (52823599, 14152553), (52823812,
14143863), (52824293, 7082124), (52825191, 14137683), (52826983, 14134108), (52830405, 7086789), (52831754, 14126723),
(52833385, 14125469), (52836554, 7091483), (52837765, 14123005), (52842213, 7090857), (52843174, 14123413), (52848075,
7088109), (52849669, 14127643), (52852928, 14130424), (52853643, 7091839), (52854593, 14133305), (52855940, 7094640),
(52859171, 14138964), (52859738, 7098704), (52860501, 14140307), (52863914, 7104349), (52865631, 14147444), (52866255,
7106675), (52867743, 14150102), (52871620, 7111993), (52872278, 14154866), (52872915, 7113275), (52876471, 14158068),
(52878028, 7118342), (52880821, 7121119), (52882835, 14159459), (52883977, 7124247), (52888594, 14160616), (52889785,
7130029), (52894467, 14157973), (52895483, 7135695), (52899374, 7139559), (52900644, 14152832), (52901695, 7141869),
(52906144, 14151622), (52909430, 7149571), (52913734, 7153842), (52914793, 14150163), (52916399, 7156486), (52919378,
14147982), (52919412, 7159487), (52923689, 14146814), (52925923, 14146322), (52926369, 7166399), (52931600, 14144020),
(52931999, 7171994), (52934284, 7174248), (52934986, 14143113), (52937126, 7177085), (52943213, 7182292), (52944503,
14143911), (52944521, 7182914), (52950220, 7185626), (52950481, 14140041), (52954813, 7187812), (52960898, 7190709),
(52961109, 14143936), (52961675, 7191080), (52963622, 14152192), (52965491, 14161376), (52966684, 7193465), (52970072,
14166609), (52972646, 7196305), (52974569, 14172779), (52977489, 14181980), (52979059, 7199356), (52980104, 14189936),
(52981468, 14193344), (52984351, 7201874), (52985034, 14202511), (52987788, 14215256), (52990096, 7204607), (52990485,
14224809), (52992464, 14232895), (52995504, 14240816), (52997227, 14245083), (52997293, 7208033), (53000801,
14254172), (53002463, 7211925), (53004985, 14262068), (53005650, 7216488), (53008445, 7215804), (53010697, 14272454),
(53013417, 7212469), (53016811, 14285097), (53019413, 7211290), (53025103, 7210171), (53025299, 14300606), (53027002,
14303267), (53028923, 14305653), (53031019, 7209012), (53032634, 14310056), (53036345, 14315234), (53037405, 7207771),
(53037594, 14317163), (53041629, 14324965), (53043013, 14328656), (53044278, 7206435), (53045721, 14335136),
(53048167, 14338998), (53049049, 7205508), (53055266, 14347753), (53055517, 7204254), (53058566, 8847833), (53058607,
8848656), (53058704, 8846144), (53058757, 8849495), (53058891, 8860786), (53059610, 14351787), (53059933, 7203380),
(53061161, 8838644), (53064741, 8836816), (53065320, 14355590), (53067078, 7202000), (53067161, 8823603), (53067522,
14356629), (53067544, 8818120), (53069851, 8810641), (53070365, 8809484), (53070585, 14357898), (53071197, 7201191),
(53075466, 8799876), (53076005, 8798095), (53076358, 8784932), (53076830, 14363134), (53077895, 7199893), (53079616,
8779801), (53080992, 8778517), (53081235, 8789277), (53085090, 7199632), (53085703, 8767975), (53086432, 14368050),
(53086680, 8771986), (53086845, 8770202), (53086976, 8780220), (53088786, 14368953), (53088917, 7200058), (53092382,
8761666), (53093420, 14369829), (53094062, 7200633), (53094156, 8759066), (53094992, 8741110), (53095276, 8742467),
(53097470, 8773390), (53098011, 8752962), (53098282, 8772944), (53098780, 14369872), (53101253, 8749556), (53101277,
8765090), (53101459, 7201459), (53103737, 8746291), (53103779, 8750650), (53104204, 8739143), (53104464, 14370687),
(53104583, 8762654), (53105494, 14371674), (53106280, 7201997), (53109961, 14377056), (53109996, 8728618), (53110699,
8745255), (53112008, 7202637), (53114665, 8737138), (53114929, 8721170), (53115455, 8735222), (53116615, 7195165),
(53117190, 7193795), (53117462, 8709949), (53117640, 8730668), (53117716, 8699841), (53117756, 14379425), (53118651,
8691863), (53120525, 8683261), (53120564, 8704626), (53121216, 8680320), (53121276, 7184064), (53121300, 8701479),
(53121822, 8667731), (53122477, 7183645), (53123123, 14380300), (53123223, 8648813), (53124951, 8662755), (53125574,
8653632), (53125645, 8652970), (53126221, 8675370), (53126912, 8667196), (53128246, 8643556), (53128296, 7180755),
(53128639, 14381656), (53131581, 8637809), (53133068, 14382858), (53134132, 7179542), (53135149, 8633287), (53137048,
8635904), (53137748, 8630747), (53139309, 14385484), (53140044, 7182984), (53142998, 8631571), (53144078, 14384669),
(53144668, 7185865), (53145481, 14382836), (53146041, 7187409), (53148768, 8629389), (53152101, 14375789), (53152653,
7189364), (53155409, 8628578), (53157613, 14370635), (53157946, 7189810), (53158996, 8640508), (53159036, 8642763),
(53160343, 8628254), (53160445, 8645012), (53160469, 8641638), (53162237, 8620902), (53163375, 14369521), (53165267,
14368551), (53165674, 8619867), (53165693, 8625231), (53166057, 7194535), (53168451, 14366777), (53168842, 8612868),
(53169348, 7197403), (53170147, 8600529), (53170642, 8576582), (53170766, 8591220), (53170774, 8576451), (53171007,
8586304), (53171449, 8612476), (53172250, 8574096), (53172721, 8600183), (53175306, 7202595), (53175765, 14368894),
(53176595, 8566010), (53176694, 8575466), (53176888, 7212004), (53177824, 8564150), (53179114, 7222452), (53180773,
14369898), (53181719, 8550997), (53181877, 7223940), (53182036, 8550755), (53182376, 8559646), (53182510, 8536077),
(53182734, 8534949), (53183607, 7219769), (53185176, 14373332), (53186062, 8524847), (53187322, 8524324), (53187326,
14373937), (53187398, 7210633), (53187507, 8527654), (53188575, 8541168), (53192019, 8513361), (53192509, 7211453),
(53193021, 8516020), (53193356, 7212658), (53193605, 8528058), (53194151, 14375580), (53196358, 8514694), (53198185,
14376004), (53198777, 8511614), (53198931, 8517755), (53200914, 8499090), (53201020, 7217632), (53202530, 8495465),
(53203286, 14380788), (53204448, 14384921), (53204487, 8510938), (53205000, 8491555), (53205347, 7217441), (53205890,
14395326), (53207990, 14401613), (53209488, 14404364), (53210317, 8485230), (53210321, 8504917), (53210651, 7217207),
(53213905, 14407407), (53215872, 8479036), (53216354, 8497540), (53216409, 8490990), (53216515, 7216500), (53219418,
14407818), (53220499, 8475034), (53221797, 8486801), (53222260, 8475535), (53222717, 8472330), (53223163, 7212703),
(53224701, 14410207), (53227185, 8482741), (53227634, 7210788), (53228003, 8488437), (53233578, 8479576), (53233720,
8485744), (53233791, 7211167), (53234244, 14421323), (53235883, 14425013), (53237008, 14427374), (53239265, 8478533),
(53239615, 8484651), (53241337, 14432717), (53243067, 7208950), (53244637, 8476382), (53244918, 8484458), (53244984,
7211888), (53246792, 14434177), (53247085, 7216025), (53248546, 8474218), (53250214, 8471453), (53250543, 8477430),
(53251130, 7221423), (53251275, 8485184), (53252306, 14439099), (53254489, 7225028), (53256180, 8476228), (53256762,
8486653), (53256986, 7227318), (53257748, 14447328), (53259981, 14449551), (53262096, 8492058), (53262392, 8480404),
(53262945, 8493290), (53263539, 7230614), (53264700, 14449349), (53267715, 8481855), (53268043, 8500091), (53268333,
8489871), (53269760, 8502493), (53269998, 7234194), (53270302, 14445497), (53273960, 8483295), (53274453, 8503310),
(53275198, 14438949), (53275663, 7236098), (53275833, 14434420), (53276137, 14421205), (53278320, 14420431),
(53279660, 8491784), (53280542, 8504136), (53280830, 8492420), (53282077, 7236689), (53285274, 14418454), (53285896,
8486024), (53285907, 8502296), (53286027, 8493916), (53286943, 7236489), (53288535, 14417347), (53291038, 8486184),
(53291919, 8503156), (53291967, 8495180), (53292257, 7231993), (53292472, 7231426), (53294100, 14416342), (53297166,
8506374), (53297601, 8488553), (53297981, 7234112), (53298240, 8496640), (53301939, 14414915), (53302343, 8510671),
(53302422, 7240722), (53302684, 8488934), (53303213, 8511349), (53303425, 8509907), (53304237, 7241339), (53304542,
8496696), (53306887, 14408997), (53308520, 8487889), (53308697, 8496872), (53308729, 14406803), (53308788, 8515726),
(53310664, 7242786), (53312705, 14409283), (53314656, 8494570), (53314848, 8517922), (53315010, 8486632), (53315572,
7244026), (53320629, 8493355), (53321277, 14414264), (53321456, 8519438), (53321929, 8486225), (53323471, 8519548),
(53324377, 14415453), (53324970, 7249897), (53325883, 8486688), (53325888, 8494494), (53326225, 8516357), (53326387,
8519614), (53328448, 7250337), (53328993, 7246659), (53329168, 14412453)]

/-- borders.go:6701-7146 -/
def border15 : List (Nat × Nat) := [
(53330738, 7235835), (53331679, 7227405), (53331732, 8488616), (53332057, 8497305), (53332138, 7220877), (53332209,
7217573), (53332702, 7207802), (53332889, 8513753), (53333608, 7198210), (53334149, 7180773), (53334227, 7177957),
(53334480, 14409119), (53334541, 7059357), (53334587, 7067524), (53334636, 7074047), (53334660, 7161907), (53334725,
7086765), (53334768, 7093722), (53334826, 7102212), (53334929, 7118310), (53335005, 7128370), (53335053, 7137109),
(53335087, 7144261), (53335166, 7154918), (53335204, 7024366), (53335571, 14408439), (53335813, 8499666), (53335898,
7022854), (53336145, 7034435), (53337499, 7052905), (53337636, 8492751), (53337957, 8501017), (53338054, 8518060),
(53338062, 7022355), (53338650, 8519044), (53338718, 7049364), (53343504, 8503624), (53344229, 8519459), (53344453,
8512877), (53344771, 8495338), (53344978, 7012684), (53347080, 14405502), (53349393, 8518535), (53349425, 8512820),
(53349831, 8506056), (53349854, 14399968), (53350337, 8495985), (53350465, 7007342), (53352549, 14392667), (53353748,
14390290), (53354795, 6999618), (53355418, 8514852), (53358061, 8497033), (53360420, 14393518), (53360451, 6999625),
(53360721, 8494900), (53360838, 8510820), (53361658, 8507749), (53364891, 14394319), (53366078, 6998661), (53366688,
8505866), (53366767, 8493242), (53369244, 14395380), (53371896, 8484817), (53372027, 8484173), (53372102, 6998835),
(53372505, 8492869), (53372559, 8504380), (53374384, 7002192), (53375720, 14394844), (53378041, 7007945), (53378196,
8503215), (53378571, 8491511), (53382969, 14391445), (53383744, 8490485), (53383969, 8504460), (53384866, 7011307),
(53385134, 8507560), (53386968, 8470134), (53389243, 8471243), (53389758, 8503965), (53389761, 8489328), (53389946,
14387597), (53390478, 8209304), (53391729, 7007986), (53394339, 14384068), (53395561, 8473827), (53395799, 8488705),
(53396040, 8502876), (53396276, 8206275), (53396345, 8204216), (53397876, 8242890), (53397901, 8246747), (53398670,
7009377), (53399838, 8229138), (53400527, 8256989), (53400565, 8222695), (53401013, 8474251), (53401244, 8488605),
(53401330, 8503074), (53401874, 14377906), (53401888, 8196822), (53402638, 8206796), (53402975, 8477289), (53403166,
8506568), (53403509, 8195091), (53403667, 7010403), (53404163, 8265071), (53406240, 14374906), (53406953, 8478740),
(53407056, 8475845), (53407197, 8503990), (53407535, 8489023), (53407671, 8195745), (53407743, 8194598), (53408038,
7010968), (53409334, 8272699), (53412896, 8488492), (53412987, 8481090), (53413168, 14373442), (53413275, 8503801),
(53413915, 7012624), (53414342, 8194785), (53415569, 8506231), (53416124, 8193036), (53417475, 8284352), (53418235,
14373006), (53418505, 8484128), (53418996, 8504444), (53419672, 8506832), (53420061, 8188031), (53420319, 7012703),
(53421345, 8289005), (53421372, 14371452), (53423745, 8183456), (53423925, 8291964), (53423979, 14369762), (53424454,
8502405), (53424784, 8483374), (53426285, 8180405), (53428302, 8295751), (53430435, 8501557), (53430612, 8175012),
(53430698, 8483718), (53431525, 7011356), (53431746, 8173652), (53432052, 14368741), (53432751, 8297438), (53436040,
8499827), (53436410, 7013010), (53436437, 8483957), (53437105, 8166766), (53437872, 14370634), (53438475, 8295406),
(53439488, 8163204), (53441576, 14370991), (53441893, 8160535), (53442097, 8498317), (53442253, 7015143), (53442333,
8484959), (53442966, 8485083), (53444268, 8300711), (53444595, 8301498), (53445308, 8100439), (53445632, 8108701),
(53446329, 8149643), (53446678, 8109113), (53447069, 8096110), (53447581, 8149560), (53447582, 8498250), (53447820,
14371886), (53447970, 8485104), (53448465, 8094364), (53448857, 7017291), (53449903, 8115498), (53449966, 8309845),
(53450453, 8310328), (53451634, 8141936), (53451884, 8125893), (53452182, 8481547), (53452770, 8087835), (53452893,
8136860), (53453184, 8480652), (53453190, 14371130), (53453668, 8499628), (53453987, 7018992), (53454712, 8484644),
(53454921, 8084355), (53456590, 8314170), (53456751, 14360493), (53457882, 14357771), (53458601, 8079768), (53458942,
8479478), (53459080, 8504083), (53459271, 8504791), (53459559, 8499559), (53459781, 14357113), (53460008, 8484529),
(53461559, 7021431), (53463421, 8073653), (53464717, 8513831), (53464794, 8315325), (53464855, 8479748), (53465148,
8510220), (53465449, 8499060), (53465998, 7022862), (53466491, 14356896), (53467568, 8484218), (53468641, 8316122),
(53469281, 8069448), (53470770, 8484428), (53470889, 14356621), (53470926, 8501717), (53471395, 8507667), (53471710,
7024857), (53475137, 8064810), (53475304, 8316444), (53476402, 8484513), (53476667, 8063917), (53476954, 14354872),
(53476990, 8501930), (53478295, 7026317), (53480069, 8503182), (53481449, 8315916), (53482150, 8061917), (53482824,
8504922), (53482909, 8488247), (53483089, 7024727), (53483448, 14353632), (53486831, 8316259), (53487405, 8061104),
(53487729, 8493297), (53488590, 8494052), (53488625, 14354200), (53489050, 7030191), (53489415, 8510026), (53490397,
7031608), (53491952, 8315747), (53492585, 14352322), (53492916, 8512536), (53493549, 8060538), (53494366, 8498577),
(53494715, 8513751), (53494990, 7036514), (53496004, 14350655), (53497078, 8316094), (53498030, 7039701), (53498756,
14342889), (53498860, 8502937), (53499912, 8504020), (53500087, 8061497), (53500189, 8520689), (53500766, 8521632),
(53500873, 14333925), (53501299, 14332120), (53502063, 8088946), (53502114, 8080071), (53502353, 8093539), (53503111,
8531488), (53503458, 7045527), (53503800, 8071622), (53503886, 8103212), (53504686, 8541354), (53504882, 8062859),
(53505975, 8315353), (53506296, 8112563), (53506733, 8551656), (53506789, 7048595), (53507704, 7048894), (53507921,
8316464), (53507935, 8514534), (53509006, 14324856), (53509117, 8315900), (53509172, 8124118), (53509817, 8560455),
(53509875, 7047938), (53510753, 8131767), (53511175, 8316332), (53511300, 8521596), (53512341, 8522711), (53512369,
8143234), (53512404, 8562603), (53512934, 8150967), (53513565, 14322831), (53514684, 7043475), (53515140, 8316449),
(53516546, 8315781), (53516568, 7050697), (53517007, 8532893), (53517380, 8158486), (53517832, 8535091), (53518139,
8160433), (53518358, 7044446), (53518668, 7054008), (53518679, 8265204), (53518705, 7096960), (53518920, 7095749),
(53519157, 8274576), (53519274, 8570067), (53519291, 8270017), (53519312, 8238461), (53519524, 8256857), (53519652,
7056984), (53520225, 8226969), (53520236, 14319155), (53520303, 8543543), (53520314, 7093404), (53520403, 8231847),
(53520876, 8311412), (53521027, 7100684), (53521067, 8279981), (53522915, 7036737), (53522963, 14316616), (53523177,
8288806), (53523272, 8164777), (53523468, 8550444), (53524024, 8553418), (53524082, 7041334), (53524427, 8305336),
(53524471, 7035964), (53524480, 8572521), (53524553, 7055435), (53525093, 7065318), (53525148, 14315782), (53525156,
7066442), (53525520, 8232661), (53525567, 8301053), (53526076, 7122169), (53526496, 7117348), (53526505, 7104117),
(53526573, 7114679), (53526877, 7084966), (53527408, 7125848), (53529129, 14318819), (53529153, 8164701), (53529922,
8555036), (53530001, 7038100), (53530245, 7050013), (53530289, 8574519), (53530892, 14318833), (53530895, 8158765),
(53530906, 7076164), (53531164, 8234123), (53531280, 7033027), (53532248, 7134343), (53532664, 7075194), (53532805,
7134909), (53533884, 8169596), (53534576, 8159027), (53534779, 8170222), (53535622, 8553121), (53535685, 7039477),
(53535804, 8574841), (53535944, 7047354), (53536039, 8235051), (53536943, 14315858), (53538671, 7135223), (53538861,
8548512), (53538982, 7133169), (53539895, 8537103), (53540521, 8170647), (53540878, 8167617), (53540906, 8533651),
(53541522, 14308905), (53541818, 7038065), (53542052, 8573514), (53542942, 8528852), (53543497, 7035153), (53543567,
14305748), (53543729, 8235773), (53544027, 7125160), (53544896, 8568301), (53546145, 7121410), (53547089, 8165017),
(53547635, 8518522), (53547972, 8236115), (53549418, 14306692), (53549894, 8564804), (53549909, 8504131), (53550740,
7120346), (53550880, 8497837), (53551488, 8236471), (53551868, 8489222), (53552261, 8510796), (53552529, 8464693),
(53553079, 8474296), (53553430, 8559993), (53553535, 8460378), (53554571, 8557816), (53555014, 6723706), (53555510,
14304018), (53555520, 8236851), (53555608, 7112169), (53555729, 6720246), (53556623, 8158742), (53556846, 6741012),
(53556952, 6740731), (53557328, 8449574), (53557731, 8158273), (53558044, 6750837), (53558072, 8518303), (53558818,
8553846), (53558985, 8157580), (53559590, 8440079), (53559624, 8237638), (53560035, 6714909), (53560885, 6724243),
(53561014, 7105689), (53561395, 6741892), (53561465, 6756503), (53561830, 14310354), (53562625, 8431863), (53562987,
7100867), (53563504, 8427979), (53563966, 6710224), (53564202, 8152024), (53564746, 14313501), (53564798, 8418908),
(53565199, 6698258), (53565256, 8547676), (53565612, 6708108), (53566501, 6722524), (53566522, 8411056), (53566593,
8239561), (53566603, 6740674), (53566772, 7093974), (53567553, 6739285), (53567938, 8404563), (53568019, 6756537),
(53568701, 8401032), (53568763, 6690775), (53568945, 8146917), (53569352, 14312831), (53569598, 9640265), (53570525,
7088564), (53570782, 6686133), (53570917, 8240878), (53571546, 8144151), (53572074, 14312192), (53572794, 8389978),
(53572928, 6742110), (53573025, 6739235), (53573031, 6680460), (53573352, 9631234), (53573909, 8383841), (53574559,
9628571)]

/-- borders.go:7147-7592 -/
def border16 : List (Nat × Nat) := [
(53574849, 7088672), (53575734, 6669788), (53575746, 9649387), (53576208, 6667824), (53576266, 8141181), (53576937,
8241207), (53577360, 8381088), (53577902, 9620735), (53578125, 6732834), (53579409, 14311881), (53579604, 7090711),
(53580377, 9617239), (53580506, 9611516), (53580509, 8139956), (53580867, 6728452), (53581257, 9657633), (53581432,
8376760), (53582351, 9601366), (53583182, 6657536), (53583451, 6719203), (53583509, 7096334), (53584267, 8153929),
(53584430, 14312512), (53584530, 9591719), (53584731, 8371424), (53584936, 8245459), (53586281, 9649869), (53586464,
9587938), (53586579, 6734994), (53586734, 8368852), (53587105, 9595289), (53587525, 7102527), (53587545, 6655817),
(53587938, 6641048), (53588284, 9640774), (53588367, 6739624), (53588449, 6639487), (53588549, 6866401), (53588988,
6864865), (53590072, 14313296), (53590558, 8364961), (53590626, 9581941), (53590785, 6742628), (53591244, 8250774),
(53591473, 8523255), (53591870, 9577173), (53591900, 9585714), (53591968, 9630771), (53592328, 6643282), (53592521,
6636762), (53592789, 6652386), (53593066, 6747499), (53593496, 8359796), (53593864, 8254069), (53594051, 9621823),
(53594289, 9593229), (53594636, 7112848), (53594645, 8255238), (53594928, 9570909), (53595000, 8520000), (53596238,
14314167), (53596352, 6755217), (53596403, 6758692), (53596516, 8354734), (53596678, 6771677), (53596729, 6785997),
(53597024, 6778398), (53597067, 6787928), (53597249, 6797825), (53597354, 6789636), (53597467, 9611881), (53597571,
9576752), (53597600, 9585504), (53597874, 9611066), (53597892, 6804605), (53598059, 9567625), (53598186, 8122988),
(53598191, 6807253), (53598508, 6816436), (53599630, 8133416), (53600094, 7125650), (53600331, 8263777), (53600620,
6641878), (53601306, 8145518), (53601429, 8146588), (53602192, 9562622), (53602580, 14315047), (53602651, 9601590),
(53602894, 8352680), (53603132, 8508716), (53603493, 9600964), (53603666, 7133881), (53603789, 9560489), (53603890,
8118581), (53604199, 6644535), (53604212, 6814801), (53604448, 8509459), (53604732, 6813524), (53604831, 8520670),
(53605058, 8274627), (53605067, 8350254), (53605641, 7138120), (53606643, 6648851), (53606789, 9592071), (53607402,
6669124), (53607512, 6801282), (53607631, 6666652), (53607724, 9553074), (53608211, 8347687), (53608741, 6681931),
(53609188, 9546994), (53609209, 14315886), (53609243, 9587504), (53609276, 6692933), (53609301, 8271106), (53609836,
6789163), (53610530, 6704816), (53610585, 8116131), (53610664, 6711656), (53610667, 8517875), (53611573, 9579087),
(53611937, 7147077), (53612005, 8280637), (53612006, 8340103), (53612067, 8115207), (53612083, 9541939), (53612208,
6715452), (53612387, 6718955), (53612477, 8516034), (53612888, 8283749), (53612984, 6728063), (53613622, 14316413),
(53613874, 8335103), (53614486, 6775891), (53614503, 6736661), (53614641, 9572279), (53614673, 8291948), (53614810,
9537421), (53614909, 7146184), (53614990, 9571206), (53615745, 8112605), (53615885, 8328178), (53616301, 6769329),
(53616313, 6746009), (53616748, 7148177), (53616936, 8303040), (53617017, 8315996), (53617179, 6762770), (53617724,
8513068), (53617938, 9562764), (53618063, 14316945), (53619494, 9533262), (53619908, 14308361), (53620365, 7152153),
(53620761, 9555725), (53620905, 9532193), (53621221, 9533691), (53621518, 8107023), (53621572, 7156248), (53621879,
8509826), (53624958, 6892620), (53625083, 6889932), (53625847, 8506212), (53626045, 9573127), (53626300, 7157798),
(53626387, 9572450), (53626449, 9554802), (53626559, 9572318), (53626567, 8101727), (53626662, 7153882), (53626873,
14296265), (53627125, 9572686), (53627183, 7167124), (53627341, 9528329), (53627664, 6880716), (53627990, 8504616),
(53629414, 9552200), (53629723, 6875854), (53630270, 6888354), (53630465, 14290523), (53630488, 6891212), (53631769,
7175244), (53632014, 9522711), (53632160, 8095822), (53632346, 9574125), (53632669, 7176292), (53632722, 9521759),
(53632722, 9564689), (53633204, 9549067), (53633279, 8501119), (53634425, 14283934), (53634779, 9558549), (53635352,
8092552), (53635691, 6869139), (53637269, 6892962), (53637684, 14283770), (53637767, 8089987), (53637867, 9543050),
(53637936, 9517209), (53638137, 9553755), (53638793, 9552693), (53638981, 8497286), (53639191, 7181493), (53639995,
9540121), (53640530, 6864880), (53640604, 8044988), (53640617, 8046712), (53641361, 8082284), (53641858, 6891656),
(53642001, 8057610), (53642016, 7186074), (53642125, 8495575), (53643058, 8062761), (53643183, 6881633), (53643274,
8042556), (53643404, 8084076), (53643473, 8086643), (53643492, 14284465), (53643737, 9536133), (53643793, 8065397),
(53643882, 9557679), (53643893, 9547917), (53644020, 6878933), (53644036, 9513241), (53644784, 8493149), (53646325,
6899401), (53646682, 6874727), (53646798, 6879423), (53646982, 7198090), (53647598, 6903465), (53649215, 6889861),
(53649615, 9510026), (53649645, 8038316), (53650525, 9545721), (53650974, 8488375), (53651084, 9535815), (53651700,
7209248), (53653930, 7214522), (53655405, 9539074), (53655419, 9510189), (53655503, 8034085), (53655985, 8484309),
(53656509, 8484124), (53656603, 9549005), (53656910, 7222113), (53657805, 7222460), (53658698, 14284791), (53660281,
14282658), (53660450, 9503580), (53661203, 9503880), (53661345, 9503271), (53662357, 9551021), (53662457, 14275586),
(53662518, 9541832), (53662717, 7231626), (53662946, 8484390), (53663244, 8028097), (53663504, 9552545), (53663508,
9526359), (53663572, 7234907), (53664515, 6862299), (53664638, 6900250), (53664662, 6893062), (53664898, 6901458),
(53665623, 8484971), (53665813, 7242394), (53665963, 8028669), (53666242, 6907177), (53666677, 14270661), (53666725,
6884849), (53666822, 6919229), (53667239, 9524020), (53667267, 6926792), (53667405, 9498244), (53667960, 6936893),
(53668289, 6868620), (53668328, 9554098), (53668552, 8484243), (53669109, 6945936), (53669337, 6975596), (53669399,
6975237), (53669646, 7249140), (53669666, 9522493), (53669693, 14277162), (53670026, 6867291), (53670334, 6956788),
(53670433, 6995981), (53670452, 7252468), (53670511, 6875983), (53671016, 6883895), (53671459, 6889278), (53671521,
7530892), (53671765, 7262091), (53671921, 6897498), (53672048, 7521565), (53672183, 7273291), (53672199, 14279362),
(53672316, 6994171), (53672539, 9495716), (53672689, 7535113), (53672889, 9550441), (53672907, 6965906), (53673092,
6975361), (53673123, 8027210), (53673128, 9530173), (53673367, 7512221), (53673448, 6911370), (53673479, 9519748),
(53673658, 6992496), (53673687, 6994804), (53674006, 7016724), (53674062, 7544630), (53674099, 7281843), (53674395,
7554707), (53674603, 7574776), (53674857, 7018060), (53674958, 6923599), (53675402, 8483204), (53675713, 6928916),
(53676387, 7026503), (53676547, 6936192), (53676715, 9493553), (53676984, 7286472), (53677021, 7563130), (53677117,
7033830), (53677454, 8025958), (53677830, 6946043), (53677939, 6947444), (53678078, 7567205), (53678281, 7043215),
(53678347, 7099770), (53678391, 7498639), (53678452, 7054594), (53678594, 14282974), (53678704, 9491690), (53678809,
9528794), (53678852, 9546058), (53678875, 7572999), (53678948, 7289413), (53679035, 9516536), (53679066, 7485482),
(53679087, 7065400), (53679293, 7357544), (53679378, 6962017), (53679641, 6964737), (53679769, 7585770), (53679883,
7072794), (53679888, 7102483), (53679973, 7367330), (53679985, 7299296), (53680443, 7088518), (53680464, 8483436),
(53680851, 8023371), (53681164, 6977831), (53681352, 7592454), (53681817, 6984009), (53681859, 7398047), (53681930,
7310007), (53681930, 7393729), (53682116, 7486704), (53682230, 7406664), (53682377, 7479941), (53682763, 7317757),
(53682814, 8021680), (53682830, 7378213), (53682863, 7415703), (53683053, 7105096), (53683184, 6995506), (53683229,
7469706), (53683235, 8024667), (53683249, 9512930), (53683511, 7426036), (53683537, 7447614), (53683591, 7463179),
(53683685, 7325473), (53683733, 7328924), (53683819, 7441593), (53683892, 7349633), (53684002, 7348334), (53684025,
14282490), (53684031, 7004145), (53684113, 9484417), (53684115, 7337972), (53684415, 9512430), (53684433, 7360100),
(53684539, 7367850), (53684978, 7015294), (53685186, 8483760), (53685240, 9541351), (53685301, 14278687), (53685394,
9527457), (53685400, 9482921), (53685670, 7604170), (53685818, 7025121), (53685974, 7099005), (53686217, 7036778),
(53686320, 7030484), (53686512, 7034835), (53687170, 7090524), (53687184, 7043734), (53687184, 7615210), (53687635,
7056916), (53687955, 7623517), (53688178, 7086539), (53688345, 7062175), (53688537, 8024019), (53688640, 7072046),
(53688685, 7630974), (53690044, 14272379), (53690144, 9511666), (53690544, 9538224), (53690548, 9476938), (53690674,
9524778), (53691367, 7640622), (53691676, 7645809), (53692644, 7651517), (53693078, 9472034), (53693531, 8484013),
(53693669, 14251641), (53693705, 14247070), (53694543, 7660674), (53694648, 14240529), (53695132, 8026885), (53695446,
9522204), (53695729, 14270078), (53695967, 14269578), (53696094, 9507898), (53696376, 14258553), (53696477, 9467508),
(53696560, 9521582), (53696776, 7157017), (53696861, 8486175), (53696924, 14229604), (53696973, 9532694), (53696977,
7670307), (53697487, 9532269), (53697506, 9475747), (53697624, 7163936), (53697709, 7148749), (53697975, 14223243),
(53698440, 14221561), (53698645, 7678875), (53698772, 7679623), (53699104, 7724635), (53699125, 7194335), (53699187,
7732404)]

/-- borders.go:7593-8038 -/
def border17 : List (Nat × Nat) := [
(53699310, 7719880), (53699520, 7739733), (53699541, 9461369), (53699765, 7703654), (53699804, 7742315), (53700023,
7714678), (53700353, 7186349), (53700482, 8031507), (53700539, 7751359), (53700613, 7199373), (53700688, 7689280),
(53700863, 7757825), (53701145, 7169650), (53701394, 7141664), (53701496, 9502711), (53701531, 9467208), (53701688,
9478350), (53701759, 9502335), (53701769, 9458704), (53702005, 7164649), (53702269, 14256680), (53702351, 14251326),
(53702569, 14250529), (53702629, 9528017), (53702780, 9516656), (53703214, 7215088), (53703398, 7767681), (53703428,
7177616), (53703433, 8489865), (53703444, 7257717), (53703544, 7268150), (53704197, 14214690), (53704278, 14262373),
(53704661, 7138638), (53704864, 7201719), (53704921, 7276501), (53704980, 7215103), (53705044, 7704566), (53705186,
7276647), (53705937, 7777969), (53706111, 8030630), (53706179, 9452851), (53706544, 7286367), (53706714, 7808525),
(53706877, 7782260), (53706885, 9511470), (53707092, 7808364), (53707177, 7786569), (53707312, 9472862), (53707342,
7137225), (53707449, 9450164), (53707500, 9509565), (53707551, 9497456), (53707672, 14267737), (53707766, 9525059),
(53707933, 9460491), (53708267, 7296847), (53708366, 14253005), (53708517, 8493544), (53708973, 8021765), (53709161,
7138847), (53709293, 8494009), (53709711, 14220561), (53709722, 7306445), (53710184, 14223565), (53710252, 7798959),
(53710751, 7316505), (53710929, 9443195), (53711323, 8148751), (53711363, 8149854), (53711399, 8011792), (53711457,
7829631), (53711552, 8010643), (53711680, 7816474), (53712187, 9521433), (53712466, 8001535), (53712513, 7325627),
(53712760, 7148263), (53712851, 9438974), (53713019, 7704464), (53713059, 9465537), (53713119, 8139089), (53713137,
14233700), (53713195, 7852904), (53713294, 7151606), (53713357, 9516855), (53713648, 9448472), (53713668, 7991028),
(53713704, 8159499), (53713919, 9463124), (53714009, 8137305), (53714346, 7334727), (53714434, 8155780), (53714558,
7978163), (53714565, 8159775), (53714680, 7872672), (53714881, 14238703), (53715163, 8498174), (53715539, 7968147),
(53715630, 7877652), (53715770, 7159772), (53715970, 7958635), (53716151, 9511129), (53716227, 7942120), (53716244,
7890723), (53716250, 7955473), (53716277, 7944781), (53716591, 9432103), (53716605, 7346960), (53716668, 7928986),
(53716805, 14243686), (53716908, 7437878), (53717025, 7904569), (53717243, 7919568), (53718317, 7704377), (53718653,
9428453), (53718789, 9441663), (53718808, 7169128), (53718916, 9449269), (53719110, 9505471), (53719185, 7348804),
(53719725, 7413454), (53719887, 8133450), (53719947, 7410854), (53719953, 9501780), (53719988, 7174270), (53720019,
7397029), (53720103, 7422670), (53720151, 14252138), (53720241, 7394429), (53720415, 7388375), (53720537, 7404003),
(53720772, 7474319), (53720795, 8166052), (53720822, 7362554), (53721125, 8502023), (53721229, 7469983), (53721278,
9423785), (53721436, 7182192), (53721580, 8168412), (53721876, 7431296), (53722002, 7382482), (53722121, 14254461),
(53722201, 7368868), (53722206, 7235465), (53722227, 7236405), (53722398, 7465375), (53722520, 7480735), (53722533,
7491966), (53722555, 7225479), (53722653, 7491313), (53722779, 7187474), (53722974, 7213021), (53723019, 7245717),
(53723063, 8179182), (53723133, 7196702), (53723224, 7501537), (53723310, 8503269), (53723416, 7490853), (53723502,
9491694), (53723914, 7256428), (53724429, 7436932), (53724496, 9418827), (53724614, 7267399), (53724728, 7282562),
(53724733, 9490009), (53724869, 7346386), (53724900, 7284839), (53725150, 7363083), (53725608, 14256737), (53725615,
7294823), (53725856, 7461175), (53725935, 7343154), (53726164, 7304385), (53726262, 8505253), (53726700, 7314800),
(53726741, 8137424), (53727033, 9481455), (53727126, 8173919), (53727264, 7437904), (53727374, 7326841), (53728553,
8139978), (53728604, 9414214), (53728671, 7460855), (53728863, 9472404), (53729213, 7363887), (53729439, 7503688),
(53729503, 8165664), (53729528, 7499466), (53729965, 14266009), (53730241, 8150294), (53730759, 9465537), (53731170,
14265071), (53731193, 7372061), (53731254, 14265248), (53731484, 7462241), (53731720, 9460873), (53731801, 7373270),
(53732378, 9409248), (53732751, 8508652), (53733019, 7434297), (53733540, 14179626), (53733570, 7428832), (53733840,
7464787), (53733918, 7421129), (53733959, 9453444), (53734532, 7409439), (53734574, 7502120), (53734693, 14178975),
(53734952, 14171975), (53735197, 7382624), (53736246, 9449609), (53736261, 7401182), (53736326, 9405551), (53736505,
14187439), (53736659, 14267617), (53736766, 8511225), (53736978, 9404054), (53737185, 14124787), (53737634, 14131700),
(53738122, 8516860), (53738217, 14118298), (53738953, 14140065), (53739697, 14104395), (53739882, 7467042), (53739885,
14194241), (53740098, 14148271), (53740351, 14167776), (53740490, 7504070), (53741105, 14167478), (53741164, 9443179),
(53741563, 14097089), (53741850, 14147296), (53741988, 9400635), (53742212, 9441053), (53742494, 14267975), (53742591,
14198614), (53743405, 8022833), (53743497, 14089199), (53743523, 7531839), (53743608, 7538751), (53743714, 14266685),
(53743737, 7528374), (53743826, 8517007), (53743884, 7509136), (53744060, 14097820), (53744562, 14085765), (53744892,
14079520), (53745119, 8019061), (53745199, 14205429), (53745783, 7549048), (53745942, 7611471), (53746470, 7606940),
(53746720, 14208288), (53746773, 7514869), (53746776, 7619750), (53746851, 7595690), (53747130, 8021784), (53747470,
7561524), (53747521, 7469919), (53747533, 8014431), (53747658, 7627067), (53747747, 7563243), (53747845, 8521206),
(53748014, 7585710), (53748064, 9394953), (53748214, 7580949), (53748226, 9433362), (53748306, 14266019), (53748321,
7568411), (53748911, 9394097), (53749799, 7629216), (53749896, 8521615), (53750702, 14215321), (53750742, 8008949),
(53750998, 14071690), (53751119, 14069392), (53751168, 7682532), (53751248, 7473255), (53751954, 7638313), (53752384,
8007711), (53752404, 14049199), (53752412, 7674666), (53752462, 14053013), (53752663, 8021202), (53753552, 9390296),
(53753636, 7478928), (53753692, 14219551), (53754222, 14257916), (53754617, 14257667), (53754702, 14041348),
(53754937, 7685327), (53755552, 7640484), (53755987, 9427758), (53756123, 7494221), (53756128, 7668866), (53756187,
14221858), (53756215, 7501567), (53756595, 7511497), (53756648, 7687544), (53756963, 7520562), (53757046, 7635554),
(53757215, 14031850), (53757326, 8030297), (53757357, 7531789), (53757724, 7540855), (53758080, 7549057), (53758108,
8525196), (53758274, 14248212), (53758466, 7559851), (53758545, 14030099), (53758616, 7616049), (53758677, 8027163),
(53758708, 8008219), (53758757, 7606101), (53759113, 7571070), (53759148, 7595712), (53759345, 9384583), (53759645,
14229396), (53760302, 9427019), (53760560, 7737172), (53760687, 14022523), (53760816, 9383470), (53760950, 7733510),
(53761298, 7743762), (53761372, 7723652), (53761420, 14232689), (53761447, 8527536), (53761841, 7698091), (53762060,
7713096), (53762612, 7694117), (53762898, 7701085), (53762995, 9415413), (53763025, 7709286), (53763107, 7755677),
(53763301, 14012563), (53763835, 7764594), (53764134, 7668672), (53764139, 8000596), (53764265, 7763531), (53764469,
8529763), (53764977, 9414389), (53765074, 8018770), (53765101, 14009685), (53765115, 7773072), (53765207, 9424636),
(53765460, 7997466), (53765528, 9374951), (53766249, 13999151), (53766468, 9413600), (53767029, 7784468), (53767403,
9372692), (53767458, 8017445), (53767474, 8532278), (53767832, 13993956), (53767990, 7671235), (53769136, 7793551),
(53769713, 13979792), (53769776, 7989012), (53770644, 9369991), (53770775, 9407201), (53770781, 7797343), (53771092,
7802307), (53771330, 7675808), (53771628, 8016805), (53771676, 13974543), (53771850, 9420728), (53772307, 7865567),
(53772532, 13971979), (53772646, 7999101), (53773970, 7970528), (53773971, 7679776), (53774439, 7812532), (53774551,
7967985), (53774851, 7974087), (53775398, 8003223), (53775912, 9402279), (53776014, 8015750), (53776264, 9364765),
(53776451, 7683978), (53776483, 13964917), (53776573, 9406986), (53777533, 9416111), (53777762, 9363566), (53778135,
8536863), (53778222, 7869166), (53778803, 13959540), (53778804, 7823006), (53779091, 7957762), (53779566, 7927521),
(53779719, 7932827), (53779991, 9403578), (53779993, 7940044), (53779996, 7693460), (53780094, 7915310), (53780374,
7978478), (53780393, 7809604), (53780437, 7798374), (53780443, 7713717), (53780447, 8538568), (53780482, 7779607),
(53780503, 7816991), (53780747, 7722805), (53780766, 7703348), (53780834, 7769926), (53780855, 7951392), (53780882,
7977742), (53781052, 7907762), (53781172, 8005141), (53781187, 7756606), (53781218, 7859895), (53781223, 13956149),
(53781345, 8009787), (53781529, 7746123), (53781705, 7754498), (53782119, 7738792), (53782292, 7870890), (53782340,
9401279), (53782412, 9359207), (53782754, 8538975), (53783455, 7899216), (53783828, 7853353), (53784015, 9409789),
(53784020, 7965921), (53784267, 7874128), (53784275, 9346682), (53784733, 9342736), (53784796, 7894299), (53785156,
13948828), (53785411, 7849934), (53785963, 7951357), (53786020, 13946721), (53786229, 7887687), (53786577, 7947136),
(53786605, 8541313), (53787722, 7938466), (53787739, 9344490), (53787897, 9355865), (53788014, 8553008), (53788277,
9397908), (53788367, 9344405), (53788924, 9410501), (53789704, 7850647), (53790653, 7926500), (53790979, 13937485),
(53791317, 7923150)]

/-- borders.go:8039-8484 -/
def border18 : List (Nat × Nat) := [
(53791447, 13936886), (53791905, 7916331), (53792187, 8543367), (53792219, 9392893), (53792761, 7860563), (53793230,
7908762), (53793686, 9352787), (53793897, 7875900), (53793949, 7879473), (53794172, 9392697), (53794355, 7891387),
(53794407, 9401918), (53794711, 9403352), (53797062, 9343588), (53797119, 8544227), (53797212, 13927729), (53797448,
13931359), (53797660, 13924917), (53799384, 9346657), (53800503, 9404303), (53801267, 13907676), (53801631, 13918864),
(53802170, 9402940), (53802493, 8542653), (53802619, 9342792), (53802843, 13899288), (53803796, 13917184), (53804971,
13896585), (53805701, 9340131), (53806237, 9402036), (53810186, 8544734), (53810743, 13890795), (53810747, 13890570),
(53811254, 9336237), (53811594, 9400148), (53814422, 8547502), (53815753, 9330813), (53816879, 9330102), (53817186,
9394804), (53817426, 13881359), (53817957, 13881684), (53820727, 8555010), (53822643, 9327370), (53823080, 13873125),
(53823225, 9388839), (53823300, 9400708), (53823821, 8894488), (53824361, 8899618), (53824653, 13872407), (53825853,
8555821), (53826860, 9295146), (53828037, 8557748), (53828128, 9298062), (53828288, 9323088), (53828372, 9382406),
(53828779, 8889868), (53828924, 13871407), (53828935, 8906996), (53829225, 8880278), (53829551, 8869939), (53829589,
8911942), (53829796, 8859979), (53829798, 8861711), (53829861, 8920577), (53829913, 9380906), (53830612, 8924922),
(53830671, 9304324), (53830797, 8824279), (53831155, 8850537), (53831394, 8818454), (53831776, 8930536), (53831934,
8812095), (53832452, 8840435), (53832485, 8800099), (53832791, 8561595), (53833401, 9371410), (53833698, 8791241),
(53834061, 9309985), (53834177, 9315975), (53834470, 8940059), (53834694, 9367524), (53834867, 13868380), (53835038,
8783174), (53835242, 8782452), (53835501, 13863433), (53836000, 8950412), (53836569, 8953864), (53836590, 8770987),
(53836850, 9004497), (53837259, 9002790), (53837277, 9360617), (53837396, 8998650), (53837692, 9009426), (53837812,
8959999), (53837926, 8564789), (53838387, 8970499), (53839141, 8983926), (53839600, 13881956), (53839833, 13887426),
(53839852, 8566286), (53839903, 13890784), (53839909, 13898023), (53840063, 13854484), (53840199, 13881979),
(53840281, 9304353), (53840429, 8768728), (53840512, 9351377), (53841013, 9302676), (53841388, 13853054), (53841431,
13818990), (53841763, 13904147), (53842098, 9019068), (53842211, 13869578), (53842466, 13863542), (53842509,
13823127), (53842624, 9028918), (53842650, 13842599), (53842775, 8762066), (53843135, 9027160), (53843232, 13825617),
(53843481, 13939404), (53843524, 9032785), (53843588, 8572094), (53843659, 13815112), (53843711, 13940786), (53843840,
13914524), (53843887, 13945221), (53844128, 8575397), (53844129, 13933214), (53845001, 13917165), (53845320,
13956730), (53845627, 9294546), (53845924, 8754055), (53846037, 9344800), (53846187, 9040432), (53846401, 9292449),
(53846930, 13964920), (53847196, 9343262), (53847232, 13856126), (53847296, 8751922), (53847599, 13855346), (53847880,
13987860), (53848457, 13969248), (53848550, 13973980), (53848787, 13814323), (53849244, 9045068), (53849249, 8579401),
(53849319, 13945953), (53849700, 13826278), (53850014, 13838353), (53850030, 9047925), (53850135, 13994058),
(53850139, 13922976), (53850720, 13929300), (53850845, 13825883), (53851292, 9286174), (53851835, 9339168), (53851928,
8744122), (53852179, 8741776), (53852975, 13996158), (53853235, 9283395), (53854222, 13824705), (53854551, 13812701),
(53854799, 9059083), (53855376, 8731497), (53855410, 13953963), (53855545, 8585188), (53856262, 9065892), (53856713,
9067382), (53856754, 13826973), (53856828, 9331753), (53856940, 13923290), (53857010, 14006270), (53857265, 9275877),
(53857540, 8726086), (53857947, 13806975), (53858244, 9329381), (53858411, 9272491), (53858970, 14009910), (53859369,
9077191), (53859915, 9262264), (53860292, 13830080), (53860560, 13954830), (53860573, 9322716), (53860593, 9253669),
(53860610, 13809830), (53860940, 13926870), (53861110, 8590733), (53861292, 9081577), (53861414, 8716970), (53861600,
13928810), (53862038, 9241722), (53862665, 9087595), (53862722, 9234867), (53862839, 8713399), (53862956, 8722825),
(53863260, 8704430), (53863335, 9315936), (53863362, 9230298), (53863640, 13818450), (53863886, 8594368), (53864086,
8701551), (53864180, 13944990), (53864260, 14015200), (53864374, 9105317), (53864370, 9220412), (53864603, 9108441),
(53864630, 9312757), (53864770, 14016490), (53864978, 9211666), (53865370, 14213932), (53865483, 9204822), (53865492,
13831271), (53865697, 9119832), (53865781, 13824988), (53865855, 9130132), (53866052, 14206709), (53866153, 9192746),
(53866169, 9146159), (53866170, 9138294), (53866270, 9157987), (53866547, 9183617), (53866833, 9166201), (53866940,
8598488), (53867157, 14212575), (53867300, 13935810), (53868239, 14203364), (53868451, 8707327), (53868490, 14113490),
(53868520, 14117390), (53868692, 8715794), (53868730, 14061470), (53868970, 14027660), (53869280, 14066230),
(53869320, 14140780), (53869608, 9300922), (53869810, 14102620), (53870110, 14124720), (53870136, 13851206),
(53870220, 14054940), (53870270, 14029360), (53870374, 14143031), (53870380, 14144660), (53870383, 13926994),
(53870470, 13851635), (53870550, 14133390), (53870619, 13847027), (53870714, 14178180), (53870846, 13844363),
(53870853, 8604542), (53870980, 14158080), (53871150, 14076150), (53871168, 13836739), (53871495, 14193969),
(53871580, 13858540), (53871647, 14124576), (53871738, 14165667), (53871861, 13821736), (53871940, 14095210),
(53872043, 9292863), (53872690, 14093890), (53872947, 14080436), (53873125, 14213533), (53873276, 13928231),
(53873580, 14043370), (53874283, 8601206), (53874297, 8707724), (53874815, 9279733), (53875194, 8700059), (53875530,
13869700), (53875952, 9273557), (53876063, 8604155), (53876190, 13871850), (53876597, 13891034), (53876640, 13878780),
(53876980, 8691789), (53877517, 13824564), (53877556, 13844900), (53877939, 9261984), (53878509, 13839090), (53878896,
8609175), (53879049, 14214523), (53879841, 14214915), (53880103, 13898942), (53880260, 13898849), (53880263, 8686595),
(53880821, 13849655), (53881229, 9252173), (53881446, 8613630), (53882062, 8625247), (53882231, 13849671), (53882860,
13849538), (53883682, 9242649), (53884754, 8633490), (53885061, 14214131), (53885083, 8634505), (53885704, 13907109),
(53885864, 13910113), (53886330, 8683202), (53886853, 9229410), (53887207, 8643085), (53887380, 9126177), (53887426,
9137329), (53887444, 9169903), (53887473, 9175507), (53887790, 13920110), (53888035, 13850851), (53888055, 9121470),
(53888236, 9221246), (53888421, 9106513), (53888747, 9093663), (53888784, 9102181), (53888853, 9158230), (53889064,
8653290), (53889093, 9212314), (53889289, 9201816), (53889753, 9192271), (53890069, 9145787), (53890415, 8662266),
(53890532, 9124153), (53890557, 9081886), (53890916, 14213212), (53891010, 13923710), (53891104, 9146934), (53891133,
8983804), (53891197, 8977558), (53891287, 9137601), (53891429, 8683866), (53891530, 8669549), (53891622, 8988579),
(53891801, 8672491), (53893229, 8998485), (53893538, 8967240), (53893547, 9074944), (53893884, 13855655), (53894106,
9007269), (53894854, 11453208), (53895063, 8965896), (53895321, 11460075), (53895372, 9012902), (53895708, 9065532),
(53896129, 9063696), (53896219, 9017039), (53896560, 13927690), (53897364, 14212537), (53897873, 9055661), (53897940,
13862003), (53898152, 11462663), (53898951, 11443026), (53899170, 13863430), (53899449, 11442509), (53900018,
9026858), (53900198, 9037865), (53900570, 8956036), (53901023, 11455402), (53901258, 9018069), (53901566, 11434669),
(53901646, 11463191), (53902283, 14209872), (53902847, 13872212), (53902860, 13931000), (53903272, 11450915),
(53904589, 14206824), (53904669, 13875696), (53904874, 9016324), (53905742, 9028923), (53906842, 8945400), (53907007,
9022016), (53907101, 11446074), (53907184, 11436415), (53907250, 9028292), (53908300, 13937150), (53908653, 13882418),
(53909039, 14204787), (53910084, 13899976), (53910233, 13888164), (53910747, 11432879), (53911130, 13902483),
(53911703, 14196072), (53911975, 14185316), (53912481, 8499616), (53912575, 8939054), (53912892, 11446380), (53913141,
11425986), (53913220, 8492507), (53913690, 13938100), (53913853, 8504564), (53914136, 11421552), (53914643, 8936282),
(53914768, 13909046), (53914879, 14187458), (53915001, 14196838), (53915450, 14202039), (53915673, 11454486),
(53916634, 8514161), (53916678, 11412985), (53917604, 8486928), (53918215, 8515414), (53918367, 13913073), (53918435,
11460271), (53918835, 14212217), (53919187, 11408032), (53919615, 13932413), (53920024, 8926506), (53920285,
13931918), (53920840, 13914241), (53921094, 11404138), (53921730, 14216685), (53922061, 11464007), (53923876,
8515403), (53923960, 13912880), (53923991, 8920640), (53923995, 8488440), (53924268, 13933510), (53924363, 14220709),
(53924756, 11467317), (53925572, 8512563), (53925653, 8916948), (53925708, 11478060), (53926027, 11400997), (53926288,
13932470), (53926687, 13911205), (53926867, 14224681), (53928234, 8502512), (53929706, 8492417), (53929874, 8501891),
(53929891, 11481834), (53929957, 11280912), (53930132, 8911079), (53930161, 11275107), (53930895, 14220136),
(53931197, 11288282), (53932075, 11404050), (53932350, 11264260), (53932869, 11262545), (53932879, 11404802),
(53933015, 13932082), (53933273, 11292309), (53933350, 13903310), (53933860, 13959730), (53934737, 11368532),
(53934786, 13954252), (53934995, 8906293), (53935103, 11364911), (53935426, 11255254), (53935677, 11478222)]

/-- borders.go:8485-8930 -/
def border19 : List (Nat × Nat) := [
(53935781, 11297340), (53936010, 11376943), (53936370, 13953800), (53936515, 13959392), (53937043, 11396629),
(53937141, 14204266), (53937177, 13931129), (53937354, 11361031), (53937545, 11382682), (53937855, 11393481),
(53938096, 14202242), (53938317, 11303851), (53938680, 13897300), (53938904, 11250409), (53939395, 11308325),
(53940356, 11354977), (53940540, 14039890), (53940880, 14033370), (53941063, 13925289), (53941424, 13895397),
(53941431, 11246988), (53941825, 11481376), (53941907, 8900633), (53942642, 14192787), (53942770, 13953210),
(53942850, 13962760), (53943266, 11316582), (53943343, 13924559), (53943682, 11349656), (53944020, 14190083),
(53944100, 11317465), (53944347, 13885022), (53944540, 14043490), (53944900, 14023720), (53944946, 14028132),
(53945219, 11243646), (53945250, 14019800), (53945263, 13883622), (53945302, 8432339), (53945580, 8434345), (53945732,
8427637), (53946142, 8436534), (53946848, 11345793), (53947397, 14183536), (53947795, 8896495), (53947832, 11482368),
(53947894, 13966451), (53948160, 14014960), (53948290, 13857611), (53949410, 13922210), (53949420, 13952820),
(53949769, 11321107), (53949975, 11343711), (53950020, 13856830), (53950086, 13867785), (53950621, 14035264),
(53950705, 11241116), (53950821, 14178270), (53951000, 13957130), (53951190, 13879390), (53951493, 13868453),
(53951556, 8427334), (53951611, 14010882), (53951650, 14035734), (53951937, 13853972), (53952316, 13867138),
(53952658, 8892356), (53953236, 11480977), (53953570, 13957940), (53953580, 13915810), (53953886, 14174407),
(53954060, 13955320), (53955209, 11340291), (53955399, 13912311), (53956334, 14172308), (53956480, 14038609),
(53956534, 11326437), (53956561, 14016451), (53956796, 10900109), (53956931, 10901981), (53957113, 14016956),
(53957374, 11452882), (53957429, 11327368), (53957519, 11455629), (53957654, 11241945), (53957870, 13853580),
(53958106, 13907591), (53958436, 10884628), (53958500, 13970721), (53958810, 13972140), (53958890, 14003760),
(53958893, 10912036), (53959045, 8441180), (53959083, 11480305), (53959160, 11455242), (53959231, 8442875), (53959312,
14016628), (53959425, 13984816), (53959494, 11445490), (53959910, 13951480), (53959919, 10916144), (53959980,
13989490), (53960031, 11444578), (53960260, 10883653), (53960403, 14165409), (53960669, 11427294), (53961085,
11424944), (53961105, 8885602), (53961631, 10921964), (53961846, 13897766), (53962210, 14042650), (53962512,
14161800), (53962693, 11243358), (53962930, 13959870), (53963326, 11471604), (53963485, 8439007), (53963488, 8443484),
(53963640, 13854564), (53963665, 8883423), (53964077, 11398584), (53964355, 11394346), (53964382, 10931916),
(53964626, 11479425), (53964708, 11474619), (53964847, 11415288), (53964941, 11460274), (53965451, 13962920),
(53965699, 11407896), (53965739, 10935232), (53965743, 11428152), (53965800, 11441328), (53966008, 11388451),
(53966588, 10882095), (53966713, 14155019), (53967150, 11403401), (53967227, 11386331), (53967925, 11488410),
(53967951, 11244719), (53968285, 14042642), (53968596, 13894326), (53968623, 13969804), (53968748, 10942076),
(53968970, 13849414), (53969478, 14151293), (53970230, 13847214), (53970465, 11480028), (53970494, 11486574),
(53970545, 11473341), (53970710, 13972680), (53970722, 10882506), (53970797, 8877936), (53971164, 11442690),
(53971392, 11429354), (53971398, 10947314), (53971877, 11389400), (53971934, 11396567), (53972667, 14147040),
(53972704, 11379862), (53972730, 13966580), (53973352, 14046003), (53973481, 10883563), (53973653, 11253085),
(53973780, 11246934), (53974006, 13897226), (53974206, 11446037), (53974942, 10953324), (53975280, 14143804),
(53976047, 8877270), (53976296, 11490936), (53976320, 13839874), (53976547, 11470338), (53976894, 11445919),
(53977016, 10958440), (53977165, 11428796), (53977450, 13964510), (53977697, 10884493), (53978421, 11377040),
(53978636, 10961874), (53978963, 11376837), (53979503, 8875087), (53979772, 11257808), (53979812, 13898840),
(53979967, 14136450), (53980086, 11495702), (53980190, 11258406), (53980194, 14048221), (53980661, 11476293),
(53981075, 10882695), (53981553, 8875732), (53981767, 11498852), (53981900, 13835804), (53982074, 11480091),
(53982129, 11234663), (53982220, 11238711), (53982475, 14132593), (53982580, 13965030), (53982614, 8876633),
(53982648, 11445586), (53982649, 11227030), (53983002, 11428260), (53983249, 10971380), (53983593, 10880356),
(53983664, 11375850), (53984195, 10973634), (53984464, 11218283), (53985342, 11245835), (53985350, 13901510),
(53985371, 14048230), (53985675, 11257512), (53985710, 13831574), (53986077, 11213151), (53986367, 14126036),
(53987087, 8868580), (53987776, 11499104), (53988023, 11478632), (53988310, 13822750), (53988322, 11494958),
(53988629, 11431393), (53988717, 11444922), (53988810, 13821000), (53988940, 14121580), (53988994, 10986013),
(53989073, 11205814), (53989254, 10872460), (53989586, 11376495), (53990030, 8865744), (53990047, 10870939),
(53990770, 13964400), (53990869, 10994175), (53990883, 14047286), (53990970, 14118060), (53990980, 13930050),
(53991050, 13909180), (53991126, 13916159), (53991402, 13934518), (53991509, 10839149), (53991846, 11200531),
(53991929, 10803945), (53991999, 10802603), (53992020, 10843499), (53992140, 13960450), (53992306, 10833048),
(53992460, 8862912), (53992534, 10814110), (53992799, 11199298), (53993138, 10861989), (53993368, 11002577),
(53993511, 11490657), (53993590, 13950410), (53993832, 11479082), (53994301, 11445835), (53994360, 13813010),
(53994385, 10793753), (53994452, 11005611), (53994830, 13945600), (53995181, 14110725), (53995220, 11496533),
(53995245, 11376000), (53995250, 13798640), (53995420, 13803420), (53995770, 14109700), (53995991, 10789929),
(53996556, 14046763), (53997400, 11012789), (53997402, 11378242), (53997870, 13792260), (53998834, 11194142),
(53998951, 14040328), (53998986, 8856585), (53999407, 10783991), (53999439, 11487579), (53999549, 11500151),
(53999565, 11481238), (53999666, 11018771), (53999678, 13861085), (54000200, 14101560), (54000265, 8855276),
(54001001, 11022271), (54001016, 11386599), (54001472, 13786105), (54001659, 11387994), (54001960, 14098050),
(54002561, 10779864), (54002581, 14042664), (54002980, 13863560), (54003410, 13782310), (54003523, 11192642),
(54003590, 13853410), (54003856, 14041882), (54004059, 13863853), (54004360, 13852950), (54004378, 11033057),
(54004672, 13863505), (54004995, 11506007), (54005215, 11492332), (54005325, 11483862), (54005763, 8848518),
(54005867, 11039130), (54006000, 14090560), (54006266, 11398166), (54006412, 11042857), (54006653, 11398905),
(54007405, 14088134), (54007740, 10774401), (54007960, 13776750), (54008193, 8845247), (54008199, 11051977),
(54008421, 14041342), (54008730, 11062106), (54009367, 11507020), (54009420, 13874721), (54009488, 11072194),
(54009498, 11144335), (54009584, 11408143), (54009600, 13774295), (54009659, 13886041), (54009794, 11147965),
(54009795, 11139472), (54009887, 14007493), (54010087, 11190368), (54010237, 11136850), (54010402, 11189694),
(54010702, 11508442), (54010788, 11151626), (54010810, 14081760), (54010915, 11130087), (54010928, 11495518),
(54011020, 13894740), (54011188, 11078476), (54011191, 11118678), (54011606, 11083316), (54011687, 8842258),
(54012050, 11416952), (54012124, 14013252), (54012358, 11110653), (54012492, 13852729), (54012498, 11418368),
(54012784, 11161504), (54013288, 11093309), (54013460, 14077570), (54013470, 13764595), (54013960, 13762625),
(54014263, 11171700), (54014362, 14003173), (54014483, 10768135), (54014550, 13902040), (54014660, 14034050),
(54015341, 11427959), (54015550, 14033380), (54015575, 14018144), (54015630, 11517781), (54015865, 8836084),
(54016146, 13926049), (54016160, 13855240), (54016326, 13924319), (54016712, 11522684), (54016782, 14071452),
(54017140, 13904800), (54017342, 13786595), (54017458, 11495894), (54017596, 14003314), (54017634, 13780819),
(54017759, 11527538), (54017856, 11435405), (54017878, 13797523), (54018137, 10764840), (54018288, 13799731),
(54018323, 13775041), (54018393, 13794700), (54018776, 11437991), (54018927, 13926375), (54018997, 13779782),
(54019111, 14004265), (54019394, 13917459), (54019900, 14065900), (54019920, 13758985), (54019990, 13908210),
(54020002, 13768683), (54020216, 8835169), (54020501, 10762816), (54021189, 14063824), (54021610, 13862050),
(54021639, 14003031), (54022331, 11450941), (54022433, 8826272), (54022558, 11492696), (54022565, 11534878),
(54022980, 11487139), (54023242, 11455616), (54023350, 8820891), (54023623, 11458826), (54023685, 8811359), (54023772,
8805013), (54023995, 11476883), (54024205, 13805561), (54024631, 13931709), (54024801, 11544904), (54025052,
11547358), (54025131, 13917051), (54025348, 13763632), (54025390, 11520205), (54025521, 13909292), (54025645,
10759501), (54025894, 11517423), (54025945, 13749631), (54026050, 14055203), (54026759, 13807017), (54027057,
11558078), (54027095, 8833215), (54027265, 13746780), (54027397, 11559353), (54027507, 14001610), (54027530,
13864930), (54027621, 8836144), (54027800, 11533524), (54028076, 11517444), (54028312, 11517688), (54029630,
14048920), (54029810, 13810050), (54030335, 11567316), (54030607, 13926921), (54031323, 13765333), (54031960,
13873730), (54031997, 13744149), (54032115, 10754987), (54032360, 13917020), (54032547, 14044475), (54033220,
13817350), (54033249, 11572940), (54033260, 13875440), (54033289, 8839497), (54033442, 13999076), (54033513, 8951109),
(54033612, 8956705), (54033707, 11523711), (54033724, 13748236), (54033735, 11529713), (54033765, 8940666), (54033950,
13866720), (54034269, 8960781), (54034679, 13768622), (54034917, 8938705), (54034987, 8964412), (54035020, 13818820),
(54035590, 13877770), (54036318, 11577582)]

/-- borders.go:8931-9376 -/
def border20 : List (Nat × Nat) := [
(54036530, 13924310), (54037147, 13771235), (54037164, 13762337), (54037287, 10751745), (54037694, 14037552),
(54037807, 13827715), (54037849, 8845558), (54037859, 8932826), (54037949, 11515023), (54038314, 13879438), (54038332,
13780877), (54038608, 13874024), (54038822, 14036042), (54038839, 8848526), (54038857, 11580208), (54038895, 8974311),
(54039720, 13997340), (54039763, 11514415), (54040034, 8927165), (54040066, 13836761), (54040216, 13837937),
(54040298, 8976408), (54040610, 13996670), (54040715, 8855674), (54041568, 8923246), (54042107, 13782149), (54042534,
13919393), (54042580, 13771366), (54042670, 8865793), (54042779, 13909415), (54042847, 10750357), (54042885,
13907436), (54043060, 13910210), (54043109, 13907381), (54043224, 8910185), (54043578, 8875801), (54043694, 13848617),
(54043794, 13867464), (54043982, 8897126), (54044032, 14028085), (54044500, 11584975), (54044616, 8889290), (54044712,
13866698), (54045116, 8876667), (54045252, 8885807), (54045262, 14026293), (54045458, 13845605), (54045481, 8691733),
(54045625, 11515406), (54045690, 13992200), (54046458, 8981780), (54046550, 13986950), (54046627, 13854406),
(54046662, 8695622), (54047781, 8683400), (54047999, 13780423), (54048343, 13789582), (54048601, 8699056), (54048638,
8687101), (54048680, 10751624), (54048751, 8681450), (54048820, 13910485), (54049091, 11532171), (54050116, 8983394),
(54050207, 11586961), (54050275, 14019559), (54051157, 11534099), (54051405, 11515738), (54052130, 13980290),
(54052360, 13977230), (54052496, 14017615), (54052836, 11538704), (54053681, 13789846), (54053922, 13780914),
(54054256, 8689995), (54054298, 8678301), (54054375, 10754688), (54054620, 13913830), (54054870, 13779715), (54055168,
8985259), (54055978, 8695242), (54056005, 14008093), (54056271, 10756329), (54056319, 11584511), (54056763, 11542701),
(54056887, 11536892), (54057080, 14005420), (54057165, 11512992), (54058210, 13973170), (54058613, 13950750),
(54058630, 13961400), (54058775, 13950730), (54058900, 13949200), (54059607, 13998940), (54060081, 8690849),
(54060089, 13773863), (54060227, 10761868), (54060400, 13795020), (54060572, 13917282), (54060803, 8985692),
(54061220, 13933907), (54061360, 8680173), (54061962, 13928438), (54062013, 11581978), (54062253, 10766285),
(54062708, 11547361), (54062823, 13780928), (54062936, 11518465), (54062979, 8975895), (54063298, 11536124),
(54063354, 13987446), (54063490, 8972411), (54063736, 8958758), (54063741, 13972172), (54064046, 11519347), (54064611,
11588785), (54064776, 11549018), (54064960, 8700035), (54065291, 13785999), (54065412, 13797263), (54066044, 8698908),
(54066081, 10775273), (54066252, 8684984), (54066651, 10776351), (54067411, 11599545), (54067524, 11596658),
(54067634, 8973583), (54068196, 11556079), (54068731, 11522644), (54069238, 11534061), (54069530, 11611935),
(54069707, 13968112), (54070441, 11559422), (54070944, 8977484), (54070950, 13799720), (54071373, 13789624),
(54071424, 13960170), (54071978, 10785769), (54072271, 10786342), (54072581, 13949005), (54073337, 11613545),
(54073865, 11562803), (54074353, 11534342), (54074571, 11618961), (54075509, 13934929), (54075900, 8970508),
(54076370, 13803050), (54076714, 13794974), (54077298, 10792947), (54078838, 11623780), (54078862, 11569488),
(54079604, 11573817), (54080055, 11536836), (54080972, 10796168), (54082132, 13803682), (54082227, 13802088),
(54082807, 13913977), (54082912, 11541246), (54083036, 10798878), (54083319, 13493053), (54083429, 13912105),
(54083536, 8959733), (54083541, 13495173), (54084151, 13910379), (54084837, 10866405), (54084870, 13485095),
(54084918, 10864131), (54085234, 11578555), (54085268, 13793270), (54085535, 11625249), (54085822, 11545027),
(54086687, 8955294), (54086804, 13472295), (54087112, 13902712), (54087499, 11580319), (54087655, 13465573),
(54087725, 13500474), (54087757, 13808086), (54087769, 10876738), (54088150, 10836040), (54088203, 10832556),
(54088562, 10845126), (54088666, 10826499), (54088687, 10855907), (54088722, 10845894), (54088902, 10824806),
(54088954, 13462623), (54088998, 10880093), (54089072, 10801405), (54089350, 13795048), (54089376, 8951677),
(54090285, 11626168), (54090396, 11550340), (54090653, 8941811), (54090894, 11585165), (54090899, 13893904),
(54091442, 11551491), (54091667, 10806584), (54091678, 10885897), (54092047, 13455517), (54092294, 8950360),
(54092985, 13888952), (54093510, 13496018), (54093620, 13811710), (54093876, 13495360), (54093964, 11590458),
(54093985, 10889845), (54094485, 11600360), (54094542, 13802226), (54094601, 10813245), (54094759, 10798823),
(54095177, 13456101), (54095566, 13883153), (54096441, 11619856), (54096479, 13456894), (54096874, 11601673),
(54097625, 11563632), (54098019, 13878637), (54098783, 11571573), (54099095, 10895758), (54099186, 11585393),
(54099503, 8945728), (54099621, 11590369), (54099740, 13808920), (54099777, 13488015), (54099897, 10896851),
(54100394, 10811361), (54100440, 13802357), (54100845, 13486744), (54101143, 13872874), (54101329, 13449345),
(54102064, 11614523), (54102320, 11598316), (54102963, 11600495), (54104593, 8942961), (54104596, 13447239),
(54105370, 13808320), (54105396, 13865929), (54105505, 13802496), (54105526, 10904145), (54106473, 13794721),
(54106492, 10810118), (54106826, 13785439), (54106853, 10906397), (54107290, 13485211), (54108015, 13444077),
(54108046, 11611449), (54108101, 13861609), (54108509, 8940793), (54109693, 13775994), (54109758, 8940109), (54111266,
10913554), (54111591, 13482892), (54112001, 13783197), (54112250, 13789575), (54112377, 10916138), (54112421,
13773060), (54112793, 13855349), (54113608, 13438265), (54113986, 11620132), (54114198, 11621522), (54114203,
13439096), (54115974, 13476516), (54116078, 13851238), (54116902, 10923918), (54117397, 8935882), (54117829,
13476427), (54117871, 13785653), (54118308, 13766871), (54118350, 13773404), (54118553, 13767144), (54119070,
13757120), (54119130, 13440388), (54119169, 8858372), (54119280, 10926529), (54119829, 13479703), (54119927, 8861632),
(54120071, 11629195), (54120409, 8858064), (54120644, 8862640), (54121247, 13439202), (54121780, 8933453), (54122708,
10930986), (54123007, 11632655), (54123165, 13842179), (54123469, 13488670), (54123738, 13489610), (54124002,
13775922), (54124446, 13766473), (54124830, 13757468), (54124983, 13437617), (54125116, 8871342), (54126268, 8856825),
(54126269, 11638084), (54126388, 8875483), (54126423, 13500902), (54126958, 10936321), (54127991, 13511473),
(54128386, 8929841), (54128572, 10938179), (54128843, 8881121), (54129073, 13520960), (54129254, 8850288), (54129717,
11643999), (54130029, 13544002), (54130047, 13550795), (54130393, 13538853), (54130413, 13560125), (54130753,
11645580), (54130808, 13774515), (54130834, 13754612), (54131210, 13432713), (54131439, 8841021), (54131482,
13572436), (54131608, 13572744), (54131852, 8839770), (54132030, 8841465), (54132533, 8890875), (54132573, 13581404),
(54132874, 8924501), (54133324, 10946563), (54133396, 13832104), (54133754, 8900978), (54133822, 8919440), (54133961,
13761470), (54134199, 10948269), (54134248, 10944516), (54134400, 13590854), (54134419, 13430358), (54134424,
13747930), (54134756, 11651695), (54135146, 13732801), (54135861, 13829963), (54135862, 13601088), (54136529,
13605571), (54136530, 11654861), (54136565, 13756268), (54136767, 13747184), (54136777, 13765447), (54136907,
13728979), (54137551, 8834294), (54137656, 13428039), (54137698, 13729083), (54137772, 13731190), (54137790,
13612100), (54138016, 13828218), (54139363, 13621116), (54140290, 13420650), (54140336, 10954338), (54140383,
8830799), (54141356, 11661849), (54141419, 13825958), (54141444, 13628438), (54141964, 10957454), (54142204,
13389296), (54142668, 11663913), (54142681, 13631186), (54142728, 13754830), (54143146, 13417334), (54143514,
8827301), (54144380, 13392970), (54144527, 13383361), (54144666, 11833707), (54144676, 11837513), (54144824,
11843208), (54144829, 13716812), (54144864, 11830915), (54145088, 10966568), (54145136, 11819325), (54145141,
11850961), (54145155, 13659176), (54145448, 13411772), (54145528, 11810885), (54145734, 10968065), (54145852,
13660475), (54145966, 13823152), (54145968, 13661119), (54146058, 13710386), (54146402, 11861078), (54146699,
11800114), (54147099, 13381511), (54147698, 11672158), (54147840, 11790840), (54147857, 13640987), (54148167,
11871467), (54148307, 13700808), (54148676, 13752009), (54148788, 10977161), (54149358, 13643735), (54149395,
11781248), (54149405, 13401614), (54149497, 13403033), (54149646, 8824212), (54149676, 11880256), (54149955,
11881352), (54150340, 13381540), (54150411, 13696630), (54151316, 10983609), (54151834, 11891122), (54151940,
11773684), (54152036, 13750996), (54152043, 13650677), (54152482, 13382960), (54152725, 11682272), (54152768,
10987111), (54153023, 13819265), (54153043, 11766094), (54153250, 11732724), (54153308, 11687955), (54153381,
11730558), (54153517, 11717602), (54153595, 13652906), (54153617, 11742325), (54153701, 11693207), (54153776,
11711730), (54154009, 13752090), (54154020, 11901206), (54154251, 11752640), (54154922, 8821820), (54155086,
11905397), (54155099, 13410465), (54155654, 13389715), (54156124, 13696610), (54156737, 11911394), (54156859,
10996976), (54157486, 13661918), (54157629, 13662277), (54158164, 13393783), (54158444, 13751790), (54159186,
13703070), (54159625, 11921280), (54159860, 13318960), (54159902, 13752112), (54160260, 13815910), (54160500,
11925910), (54160772, 13412931), (54161083, 13401264), (54161099, 13672754), (54161438, 13712022), (54161564,
13712431), (54161566, 11931479), (54161603, 13324079), (54161799, 11007770), (54162730, 13677526), (54162899,
11010244), (54163613, 13326807)]

/-- borders.go:9377-9822 -/
def border21 : List (Nat × Nat) := [
(54163648, 13815384), (54163716, 8819021), (54163753, 11941656), (54163976, 13414195), (54164197, 13322447),
(54165110, 13346690), (54165235, 11953725), (54165415, 11017680), (54165581, 13343356), (54165889, 11960625),
(54166116, 13683014), (54166347, 13757948), (54166396, 13420186), (54166480, 11964296), (54166606, 8817487),
(54166702, 13409475), (54167268, 13713279), (54167623, 13712964), (54168202, 13355541), (54168206, 13687458),
(54168377, 7891033), (54168408, 13356631), (54168541, 11026077), (54168556, 11972892), (54168930, 13812160),
(54169275, 13332144), (54169374, 13765652), (54169410, 7895429), (54169412, 13809587), (54169497, 13400617),
(54169761, 11029574), (54170353, 13693459), (54170574, 8809800), (54170606, 13813085), (54170697, 13394126),
(54171107, 13770458), (54171692, 13365806), (54171988, 11985269), (54172163, 13419915), (54172227, 8808620),
(54172275, 13774921), (54172495, 11037119), (54172909, 13399387), (54173122, 13389832), (54173195, 13802445),
(54173217, 13784041), (54173537, 11991793), (54173610, 13339866), (54174163, 7888581), (54174252, 13371516),
(54174322, 11041462), (54174541, 13414260), (54174635, 7899548), (54174953, 13340987), (54175330, 13812435),
(54175775, 12001904), (54176053, 13384475), (54176146, 12036276), (54176181, 12031415), (54176335, 11047164),
(54176345, 12041805), (54176416, 12004092), (54176777, 12021558), (54177110, 7884424), (54177309, 12052833),
(54177987, 8808508), (54178074, 12061800), (54178307, 13345763), (54178353, 12106030), (54178576, 13400116),
(54178761, 13405708), (54178901, 12101390), (54179321, 12112200), (54179496, 12072105), (54179739, 11052408),
(54179865, 12113949), (54179889, 7881428), (54180021, 8810109), (54180036, 7891670), (54180071, 13395439), (54180309,
12098490), (54180443, 13371000), (54180553, 13347354), (54180588, 13345472), (54180717, 7917077), (54180796,
12076167), (54181162, 7910015), (54182028, 13361832), (54182120, 13335530), (54182615, 12121569), (54182670, 7902724),
(54182720, 12081849), (54183859, 8811788), (54184131, 11057685), (54185180, 13325580), (54185320, 11058965),
(54185523, 12126720), (54185772, 7873880), (54186124, 12092952), (54186317, 7902520), (54186379, 12087221), (54186411,
7918333), (54186551, 7887759), (54186648, 7904247), (54187470, 13324180), (54187680, 7876876), (54188856, 12132603),
(54190268, 8811155), (54191128, 12135868), (54191197, 11066968), (54191241, 13769000), (54191337, 11067349),
(54193040, 13319570), (54194421, 13769420), (54195420, 11078375), (54195653, 8814842), (54196320, 13316170),
(54196589, 12142439), (54196804, 11083147), (54197045, 12142948), (54197091, 11089950), (54199120, 13314310),
(54200157, 13769020), (54201717, 8817506), (54202319, 8818964), (54202360, 12149400), (54203380, 13307800), (54203480,
11091952), (54205504, 12152946), (54206160, 13305500), (54206417, 13774531), (54207447, 8822218), (54208292,
12155993), (54208344, 11091095), (54211260, 13303540), (54211555, 8828755), (54213225, 8832901), (54213901, 12161184),
(54214205, 11090243), (54217008, 12163633), (54217100, 13299810), (54217802, 8838368), (54218370, 13299320),
(54219358, 8839338), (54219569, 12165881), (54220815, 13393545), (54221451, 11090089), (54222960, 13297160),
(54224623, 13389899), (54225344, 12171437), (54225351, 8840525), (54225413, 13397349), (54225825, 13389109),
(54225912, 11088427), (54226260, 11088358), (54227248, 13400390), (54227934, 12174327), (54229867, 13379613),
(54230060, 13292280), (54230810, 13290940), (54230816, 8840759), (54230901, 12178036), (54230946, 13370731),
(54231270, 13409883), (54231707, 11086301), (54231881, 13411431), (54232497, 13364838), (54233791, 13360727),
(54234892, 13287389), (54235308, 13349733), (54236053, 12184751), (54236204, 13421590), (54236472, 13340646),
(54236555, 12185678), (54236556, 13281517), (54236978, 8837745), (54237313, 8837307), (54237479, 11084477), (54237552,
13323706), (54238666, 13271277), (54239292, 13321188), (54239297, 13328912), (54239674, 13320523), (54239795,
13228270), (54239911, 13233332), (54240068, 13246051), (54240211, 13221777), (54240566, 13261869), (54240933,
13909025), (54241292, 13911121), (54241322, 13910070), (54241926, 12195135), (54242166, 12195804), (54242360,
13423912), (54242497, 8835869), (54243179, 13212814), (54243477, 13212122), (54243536, 11083079), (54245005,
12435620), (54245090, 8837440), (54245110, 12433995), (54245483, 12445062), (54245767, 13312776), (54245942,
12424503), (54246551, 13358798), (54246920, 12454910), (54246970, 13311469), (54247185, 13923281), (54247196,
12206431), (54247207, 13322892), (54247426, 12414699), (54247541, 13915146), (54247866, 12208165), (54248082,
12458739), (54248432, 8839240), (54248617, 13422002), (54248870, 12405698), (54248978, 13216334), (54249209,
13296703), (54249386, 13363174), (54249762, 13365139), (54249966, 12402392), (54250001, 13359785), (54250235,
11082103), (54250557, 13292219), (54250577, 13212400), (54251065, 12215808), (54251946, 13322793), (54252140,
13297214), (54252519, 12455022), (54252540, 13291205), (54252572, 13323185), (54253066, 13144241), (54253329,
13143298), (54253386, 13379007), (54253548, 12395217), (54253561, 13352873), (54253576, 12222375), (54253581,
12451370), (54253676, 13270341), (54254179, 8840232), (54254774, 13273550), (54254994, 12445106), (54255148,
12226100), (54255162, 13206629), (54255171, 13417483), (54255176, 13382955), (54255512, 12390940), (54255552,
13368354), (54255605, 13261325), (54255637, 12435100), (54255676, 11082221), (54255742, 13383387), (54255897,
13361435), (54256883, 13151380), (54256944, 13326651), (54256962, 13203718), (54257042, 12424962), (54257045,
13312487), (54257133, 12385181), (54257281, 13141842), (54257461, 13318183), (54257522, 13153911), (54257572,
13310779), (54257870, 13253097), (54258073, 12236448), (54258362, 13193894), (54258395, 13412718), (54258425,
13297800), (54258537, 13284101), (54258811, 12239200), (54259681, 13247400), (54260013, 13409623), (54260249,
8844583), (54260500, 13390726), (54260723, 11082325), (54260956, 12416448), (54261224, 12246384), (54261287,
12375961), (54261339, 12375494), (54261373, 12415752), (54261411, 13371153), (54261415, 13190433), (54261448,
13353817), (54261833, 13354109), (54262219, 13244151), (54262398, 13162826), (54262823, 8664682), (54263017,
13322915), (54263018, 13153292), (54263137, 13173045), (54263149, 13174608), (54263722, 8665331), (54263893,
13398026), (54264150, 13313792), (54264215, 12255241), (54264806, 12256540), (54265124, 13354219), (54265540,
12364582), (54265701, 8842301), (54265743, 8655469), (54266083, 13241100), (54266187, 12411876), (54266553, 11083032),
(54266654, 13386498), (54266701, 8677779), (54266810, 13324955), (54266952, 8676026), (54267414, 12363775), (54267712,
13234212), (54267769, 13352654), (54267844, 13177620), (54267882, 8688490), (54268177, 13144782), (54268665,
13152972), (54268711, 12266852), (54268843, 13317729), (54268857, 13710178), (54268949, 13134536), (54269105,
13133295), (54269143, 13328337), (54269200, 12366832), (54269431, 8646686), (54269474, 8661565), (54269536, 8684321),
(54269559, 13224576), (54269840, 13356049), (54269875, 12269982), (54269933, 8689132), (54269953, 13208694),
(54269965, 13200175), (54270061, 13155501), (54270091, 8653025), (54270265, 13334924), (54270795, 8675996), (54270896,
13367548), (54271853, 13714682), (54271890, 13395154), (54271997, 12377167), (54272058, 13715741), (54272071,
12276951), (54272142, 12410180), (54272246, 13216319), (54272247, 13124565), (54272270, 13395044), (54272486,
11083593), (54272540, 13386400), (54272585, 13704900), (54272660, 13174960), (54272857, 12378674), (54272886,
13198272), (54272896, 13704726), (54273044, 8844208), (54273278, 13215196), (54273401, 13361972), (54273541,
13371586), (54273633, 13173456), (54274081, 13335223), (54274220, 13160245), (54274582, 13335841), (54275179,
12286139), (54275302, 8639633), (54275443, 8690403), (54275459, 13116350), (54275617, 12287547), (54276010, 13115293),
(54276242, 13375827), (54277476, 8684260), (54277638, 8842464), (54277770, 13721546), (54277888, 12409132), (54277901,
13400920), (54277996, 13219277), (54278151, 13214866), (54278309, 13384847), (54278383, 13391583), (54278515,
13698963), (54278539, 11083591), (54278619, 8635227), (54278721, 13196436), (54278757, 12382547), (54278788,
12297337), (54278853, 8620899), (54278882, 13374947), (54279760, 13195914), (54279895, 13705627), (54280255,
13690899), (54280549, 8632567), (54280552, 12302908), (54280581, 8781121), (54280668, 13143995), (54281137, 8612401),
(54281203, 12377115), (54281623, 8774249), (54281633, 8788333), (54281652, 13106695), (54281862, 8696483), (54281922,
13106078), (54282006, 8622122), (54282145, 13406046), (54282354, 12307526), (54282355, 8770467), (54282496, 13146486),
(54282789, 13685820), (54283154, 8606351), (54283330, 8795853), (54283460, 8838169), (54283497, 13406607), (54283700,
13717920), (54283988, 8797830), (54284139, 13708521), (54284371, 12415128), (54284530, 13695024), (54284604,
13196453), (54284824, 11082307), (54284962, 13685714), (54285298, 12372654), (54285781, 13157343), (54285834,
13156769), (54285837, 13156446), (54285846, 8835604), (54286084, 12315796), (54286089, 8615932), (54286406, 13138621),
(54286697, 8597942), (54287458, 13179111), (54287574, 13103871), (54287647, 8704977), (54287757, 8809392), (54287855,
12319164), (54287940, 8625951), (54288006, 8595431), (54288090, 13661800), (54288123, 13176023), (54288152, 8706235),
(54288307, 12367729), (54288623, 8768862), (54288716, 13656092), (54288758, 8812456), (54288939, 13411880), (54288968,
8717787), (54289107, 8749594), (54289275, 8830885), (54289580, 12418780), (54289589, 13716069), (54290118, 8764890)]

/-- borders.go:9823-10268 -/
def border22 : List (Nat × Nat) := [
(54290144, 13187030), (54290154, 13203384), (54290386, 8726194), (54290574, 13690400), (54290605, 12365797),
(54290770, 8818558), (54290789, 13188040), (54290828, 13706702), (54291234, 13686725), (54291306, 11080192),
(54291461, 13666906), (54291816, 12326261), (54291818, 8745280), (54292028, 8622629), (54292367, 13652060), (54292876,
8607515), (54292994, 8604230), (54293069, 8588685), (54293138, 12328903), (54293139, 12428440), (54293618, 8739527),
(54293667, 13104697), (54293812, 13139946), (54294808, 13412002), (54295167, 12432227), (54295737, 13714916),
(54295876, 13108287), (54295996, 13699849), (54296187, 13180921), (54296208, 8584333), (54296259, 13195837),
(54296319, 11078431), (54296541, 13647139), (54296602, 12363277), (54296694, 13182280), (54296731, 12438584),
(54297453, 12337000), (54297533, 8583166), (54297886, 13144271), (54298054, 13647482), (54298174, 13647630),
(54298209, 13177716), (54298382, 8607025), (54298603, 12452012), (54298722, 12338678), (54299516, 12358387),
(54299549, 13149049), (54299612, 12458720), (54300007, 12458231), (54300099, 12459454), (54300635, 13416850),
(54300680, 8604813), (54301004, 13164923), (54301444, 13715889), (54301868, 11076808), (54302000, 12470371),
(54302132, 13111612), (54302282, 13419188), (54302443, 12358095), (54302533, 13182859), (54302671, 13120821),
(54302883, 12358967), (54302886, 12343096), (54303066, 13164705), (54303332, 8582413), (54303366, 13155440),
(54303658, 13657189), (54303741, 8601061), (54304020, 8608066), (54304214, 13658807), (54304381, 13125174), (54304638,
13116399), (54304930, 13178206), (54304954, 10709718), (54304999, 10712031), (54305309, 12478522), (54305469,
10700720), (54305937, 10757315), (54306057, 13669261), (54306067, 13425258), (54306265, 10762006), (54306375,
13129140), (54306473, 10721897), (54306951, 10750604), (54307060, 13717287), (54307136, 13429930), (54307471,
13107815), (54307859, 12479346), (54307867, 11075658), (54307870, 10690745), (54308240, 12363684), (54308307,
10774444), (54308518, 13678362), (54308537, 12376128), (54308569, 12349595), (54308667, 13171793), (54308766,
13678803), (54308971, 12379809), (54309033, 10734526), (54309367, 8582916), (54309626, 8599251), (54309731, 13166256),
(54309894, 13524370), (54309923, 10781627), (54310266, 10782719), (54310391, 13128061), (54310744, 13158834),
(54310944, 13100293), (54310979, 10133911), (54311032, 13112306), (54311211, 12478384), (54311229, 12480809),
(54311291, 10683435), (54311411, 10131904), (54311909, 13719143), (54311933, 13439900), (54312350, 13098969),
(54312851, 13149063), (54313267, 11074871), (54313381, 10792887), (54313633, 10133273), (54313891, 12383757),
(54314023, 13519237), (54314044, 13720627), (54314136, 13684800), (54314161, 12355488), (54314285, 10680169),
(54314363, 13523969), (54314379, 13450242), (54314508, 13518641), (54314743, 8583587), (54315132, 13693417),
(54315573, 13143024), (54315580, 13459528), (54315809, 13616559), (54315988, 10799248), (54316340, 13699568),
(54316592, 13461112), (54316602, 13616965), (54316907, 10678557), (54317042, 13095015), (54317094, 12476275),
(54317357, 10802053), (54317400, 12390522), (54317753, 10143078), (54317823, 13729907), (54318422, 13730448),
(54318438, 13102294), (54318548, 13133134), (54318981, 13620706), (54319022, 10139562), (54319299, 11073934),
(54319312, 13701471), (54319340, 12391794), (54319385, 13089690), (54319601, 13531328), (54319620, 12360301),
(54319669, 10151113), (54319757, 13530268), (54319835, 13636460), (54320067, 12360733), (54320198, 13527987),
(54321237, 8584843), (54321551, 13640247), (54321611, 13641065), (54321665, 10811217), (54321698, 13136604),
(54322124, 13626919), (54322138, 13465686), (54322144, 10812453), (54322440, 10155367), (54322637, 10673332),
(54322939, 13631887), (54323064, 13541573), (54323567, 13086933), (54323627, 10669893), (54323996, 10163889),
(54324286, 13650416), (54324394, 12471450), (54324658, 13695222), (54324899, 10162919), (54324980, 8585486),
(54325015, 13704363), (54325018, 10162769), (54325322, 13546066), (54325344, 13697291), (54325364, 12396229),
(54325494, 13731662), (54325711, 13530181), (54325779, 12365897), (54325952, 10147446), (54326011, 13452451),
(54326034, 13689982), (54326418, 13530610), (54326553, 13130345), (54326805, 10185755), (54326936, 10823359),
(54327100, 13648778), (54327136, 13657474), (54327163, 11073231), (54327393, 10824309), (54327476, 13680152),
(54327517, 10660117), (54327584, 13127646), (54327827, 10182476), (54328080, 13462454), (54328233, 13456101),
(54328356, 13661619), (54328764, 12472797), (54328792, 8586241), (54328873, 10656658), (54329207, 13084094),
(54330038, 13120242), (54330348, 12495723), (54330433, 13472636), (54330472, 12486326), (54330605, 10175659),
(54330643, 10150376), (54330691, 13734772), (54330743, 13614822), (54330903, 10169396), (54331005, 10651755),
(54331061, 13541267), (54331301, 12397102), (54331369, 13450613), (54331403, 13540205), (54331467, 12370297),
(54331546, 13623033), (54332446, 13661405), (54332526, 10833710), (54332535, 12371174), (54332722, 12501746),
(54333064, 12522461), (54333223, 11072757), (54333315, 12522557), (54333362, 13080713), (54333407, 8587904),
(54333475, 13481118), (54333483, 12520770), (54333703, 10835489), (54333758, 13481648), (54333852, 12506970),
(54333960, 13610935), (54333992, 13459617), (54334086, 13114011), (54334334, 12390931), (54334349, 10153407),
(54334381, 13611092), (54334571, 13622866), (54334593, 10647819), (54335157, 13079966), (54335285, 12415277),
(54335501, 13740109), (54335968, 12411167), (54335999, 12416277), (54336253, 12409218), (54336308, 13672628),
(54336567, 12531243), (54336677, 10169916), (54336698, 13743124), (54336776, 10156938), (54336824, 13492543),
(54337053, 12375016), (54337070, 12389272), (54337616, 10172984), (54337837, 13676341), (54337943, 8634899),
(54338320, 8645104), (54338511, 13752151), (54338606, 11071845), (54338829, 13497511), (54338865, 10842305),
(54338890, 12535779), (54338920, 13636603), (54339219, 13636880), (54339275, 8647842), (54339310, 8590634), (54339545,
8631068), (54339638, 13762445), (54339649, 13550724), (54339937, 13552107), (54340088, 13114471), (54340177,
13502205), (54340290, 13530668), (54340513, 13766384), (54340710, 13519216), (54340711, 13607073), (54340862,
13532283), (54340930, 13077172), (54341235, 8605995), (54341268, 10645037), (54341630, 13760377), (54341747,
12401435), (54342241, 10175068), (54342347, 13557988), (54342388, 12420741), (54342583, 12400729), (54342602,
10156055), (54342631, 12389158), (54342734, 8617250), (54342764, 13540938), (54342848, 12379611), (54342958,
11072064), (54343402, 12809458), (54343530, 13752120), (54343709, 13682531), (54343974, 11072554), (54344000,
13510123), (54344166, 10641929), (54344442, 8593213), (54344657, 12536324), (54344703, 8619421), (54344815, 13563363),
(54344994, 13638215), (54345009, 8656599), (54345142, 10851395), (54345182, 13602512), (54345351, 13682847),
(54345440, 13116641), (54346018, 10852749), (54346058, 10152874), (54346317, 11061883), (54346403, 10639504),
(54346512, 13642918), (54346746, 13742604), (54346799, 12812241), (54346804, 13600233), (54346858, 13075438),
(54347015, 13655435), (54347118, 13741606), (54347523, 8595375), (54347680, 12420508), (54348130, 10174801),
(54348137, 11078031), (54348259, 13567647), (54348349, 10149319), (54348390, 13664155), (54348473, 12383608),
(54348827, 8664525), (54348892, 12814426), (54348984, 8611366), (54349043, 12806687), (54349288, 13682756), (54349464,
13683568), (54349754, 13670580), (54350165, 8614244), (54350371, 13652074), (54350404, 12539829), (54350434,
13653290), (54350653, 13592201), (54350860, 12833201), (54350923, 8674717), (54350932, 8674756), (54351000, 10631591),
(54351019, 11058911), (54351043, 8673033), (54351141, 12845724), (54351256, 10861975), (54351302, 13121550),
(54351358, 12831173), (54351547, 13733440), (54351599, 10142902), (54352310, 10628059), (54352452, 13079247),
(54352659, 8599491), (54352724, 13581005), (54353017, 12542725), (54353112, 10864424), (54353143, 12852683),
(54353335, 13730333), (54353384, 11082783), (54353426, 12853085), (54353836, 12419920), (54353889, 10622192),
(54353916, 10177540), (54354211, 11078532), (54354260, 12387234), (54354537, 10150967), (54354701, 11084712),
(54354941, 10141678), (54354941, 11059329), (54354984, 8613372), (54355576, 12809170), (54355769, 13083180),
(54355874, 12585514), (54356057, 12580877), (54356058, 10868329), (54356113, 8684745), (54356131, 11063210),
(54356141, 8612529), (54356295, 12553075), (54356371, 12551858), (54356956, 8688740), (54357283, 8603393), (54357631,
13723604), (54357635, 13123158), (54357787, 12593004), (54358300, 13084772), (54358448, 10612735), (54358487,
12393311), (54358635, 10873495), (54359438, 8682755), (54359449, 12861210), (54359472, 12416258), (54359787,
13720633), (54359947, 10144753), (54360083, 11093311), (54360180, 10178812), (54360478, 12395145), (54360685,
12807746), (54361199, 12574435), (54361201, 12597641), (54361829, 12863955), (54362038, 12543615), (54362049,
12540305), (54362304, 10884629), (54362566, 10602120), (54363060, 10183268), (54363137, 8676804), (54363168,
11103353), (54363407, 13123341), (54363668, 13092833), (54363949, 12873688), (54364512, 12875616), (54364560,
13714903), (54364592, 10896412), (54364914, 10594483), (54365147, 10592543), (54365296, 10194592), (54365495,
13713825), (54365692, 10195487), (54365715, 10144632), (54365794, 12414724), (54365889, 13094103), (54366041,
11107562), (54366203, 12399042), (54366271, 10903551), (54366442, 12600155), (54366476, 8650056), (54367226,
12804334), (54367235, 12576180), (54367350, 13124516), (54367475, 8642625), (54367503, 13218952), (54367648,
11023827), (54367683, 11022233)]

/-- borders.go:10269-10714 -/
def border23 : List (Nat × Nat) := [
(54367687, 10907125), (54367760, 8672695), (54367806, 12541650), (54367973, 10580736), (54368087, 12544217),
(54368162, 12803865), (54368177, 8641773), (54368309, 8684477), (54368369, 8669964), (54368437, 8651523), (54368576,
13125704), (54368609, 8680088), (54368627, 12687420), (54368629, 8685603), (54368803, 13234786), (54368986, 10153591),
(54369060, 11113487), (54369062, 11033554), (54369094, 10142957), (54369420, 11012559), (54369447, 10999109),
(54369527, 13229973), (54369582, 13091203), (54369600, 12737249), (54369709, 10572603), (54370060, 12883043),
(54370100, 12687125), (54370189, 10570955), (54370261, 12678987), (54370301, 12730662), (54370355, 10992630),
(54370676, 13202853), (54370710, 13238451), (54370710, 13204710), (54370748, 12720838), (54370750, 12755740),
(54370815, 12606560), (54370886, 12766777), (54370894, 12419253), (54370951, 10913106), (54371049, 12573050),
(54371053, 8653313), (54371253, 11120961), (54371317, 11043946), (54371329, 13168335), (54371378, 10194969),
(54371533, 13216724), (54371645, 12617581), (54371732, 12614139), (54372002, 13176270), (54372005, 13200619),
(54372067, 10156789), (54372171, 11049007), (54372213, 11005146), (54372276, 12554411), (54372357, 12404019),
(54372470, 12753319), (54372491, 12425361), (54372525, 10988046), (54372588, 12802027), (54372616, 12517264),
(54372733, 13177203), (54372751, 12581467), (54372811, 10561896), (54372867, 13708000), (54373103, 13135359),
(54373166, 11123749), (54373250, 13164773), (54373326, 12561593), (54373478, 12769691), (54373701, 10917402),
(54373770, 10982549), (54373821, 12553968), (54373903, 8649081), (54373915, 8635599), (54373942, 13143463), (54373990,
11055813), (54374206, 8654803), (54374270, 12624217), (54374274, 12741693), (54374297, 13147855), (54374347,
12520998), (54374421, 12514014), (54374654, 12884721), (54374700, 10998395), (54374744, 11065061), (54374764,
12719744), (54375038, 13186196), (54375182, 12753486), (54375545, 10552410), (54375672, 12434264), (54375673,
11017228), (54375820, 12680110), (54375929, 12684918), (54376206, 12884691), (54376528, 12885025), (54376584,
11073499), (54376596, 13235770), (54376736, 11127148), (54376766, 10548705), (54376855, 13085348), (54376929,
12435123), (54376977, 10163742), (54377094, 12407654), (54377115, 12631161), (54377185, 10195482), (54377596,
11025960), (54377698, 13084246), (54377833, 11025573), (54377851, 10166694), (54377926, 11075664), (54377948,
13706018), (54377969, 13246253), (54378001, 12794447), (54378114, 11004658), (54378135, 10998963), (54378155,
12635306), (54378177, 10923601), (54378331, 10987106), (54378361, 10980556), (54378676, 12786498), (54378884,
13047919), (54379110, 10924821), (54379271, 12553654), (54379271, 12772636), (54379310, 10541080), (54379455,
12524681), (54379650, 13257131), (54379737, 12450139), (54379967, 12525282), (54379978, 12523675), (54380002,
12504436), (54380143, 11022884), (54380167, 12746526), (54380341, 10532828), (54380379, 12743161), (54380479,
12414445), (54380562, 13058067), (54380670, 8635502), (54380720, 12503318), (54380780, 10162658), (54380912,
12456042), (54380933, 12717088), (54380939, 12644763), (54381041, 13065504), (54381329, 12784834), (54381340,
12691960), (54381407, 12534783), (54381527, 12462745), (54381566, 12464577), (54381613, 13260963), (54381716,
10973107), (54381855, 12477926), (54381893, 10961362), (54381935, 10933966), (54381999, 12491282), (54382025,
12884487), (54382113, 10524251), (54382207, 13045319), (54382243, 13075142), (54382408, 12651661), (54382520,
12886648), (54382639, 12418684), (54382647, 8648704), (54382677, 10521266), (54382913, 13043404), (54382945,
11129798), (54383007, 10203005), (54383074, 10203233), (54383140, 10943535), (54383162, 10166577), (54383221,
11082002), (54383517, 12655352), (54383560, 13699901), (54383664, 12592272), (54383813, 13250044), (54383837,
10161044), (54384043, 12592627), (54384380, 13696525), (54384436, 10950697), (54384439, 12715096), (54384613,
10512757), (54384651, 11083843), (54384742, 13244515), (54384800, 12784444), (54384929, 12696332), (54385242,
12774116), (54385464, 12424914), (54385698, 12541246), (54385855, 10502360), (54386342, 12545196), (54386796,
12713455), (54387440, 12691817), (54387665, 12887781), (54388008, 12578748), (54388159, 12661909), (54388208,
12430738), (54388292, 10489975), (54388334, 11130293), (54388348, 12596499), (54388368, 12696792), (54388493,
13236980), (54388627, 12667133), (54388630, 12574692), (54388704, 10174198), (54388818, 8651073), (54388848,
13038878), (54388886, 12561447), (54388981, 11088029), (54389037, 11109685), (54389110, 10174180), (54389463,
10190480), (54389536, 10208086), (54389831, 10483239), (54389862, 12597418), (54390277, 13236602), (54390281,
8652522), (54390287, 13687163), (54390383, 10193398), (54390446, 11115038), (54390833, 13035026), (54390867,
12785835), (54390912, 12435384), (54391240, 12777118), (54392306, 12592137), (54392822, 10472529), (54392917,
11094027), (54393244, 12686528), (54393608, 12685518), (54393650, 12585612), (54393696, 12714356), (54393858,
12438977), (54394068, 12671095), (54394079, 10469033), (54394208, 12896352), (54394319, 11118445), (54394412,
13233425), (54394438, 11108822), (54394482, 11103329), (54394773, 10209656), (54394888, 13028001), (54395268,
12698108), (54395280, 10188961), (54395515, 13026408), (54395750, 8660526), (54395971, 8663082), (54396018, 12580592),
(54396188, 12787201), (54396425, 13678021), (54396581, 12785732), (54396582, 13209399), (54397501, 8699066),
(54397554, 12665323), (54397560, 8666657), (54397649, 13207145), (54397687, 13217316), (54397779, 10459248),
(54397937, 10214099), (54397987, 8695557), (54398289, 12715348), (54398452, 8704692), (54398480, 13628326), (54398555,
13629393), (54398560, 12896651), (54398669, 12702143), (54398704, 8723691), (54398837, 13646687), (54398877, 8740024),
(54398918, 8690098), (54398936, 12896505), (54399006, 12687547), (54399043, 8719217), (54399151, 13649264), (54399209,
12575958), (54399447, 12445677), (54399590, 12445899), (54399959, 12660221), (54399959, 13660428), (54400189,
13230918), (54400190, 10451713), (54400193, 8672190), (54400605, 10216520), (54400658, 13220477), (54400696, 8748878),
(54400740, 10191901), (54400789, 13618459), (54400838, 12896899), (54400917, 13024715), (54401029, 13209173),
(54401373, 11166526), (54401391, 11158769), (54401783, 11174426), (54401898, 11311129), (54401928, 11153662),
(54401980, 11121444), (54402353, 12575977), (54402466, 11143877), (54402586, 13666120), (54402777, 11124348),
(54402785, 11304338), (54402797, 8852766), (54403203, 12576601), (54403717, 10443196), (54403724, 11292386),
(54403796, 11294097), (54403821, 11296076), (54403945, 8848811), (54403968, 11312154), (54404056, 12714401),
(54404092, 8865055), (54404289, 11113869), (54404348, 12666698), (54404381, 12906285), (54404683, 11284151),
(54404767, 12907326), (54405104, 12452386), (54405276, 11180284), (54405320, 12668593), (54405380, 8872076),
(54405813, 10437573), (54406020, 13609040), (54406044, 11111337), (54406248, 10218082), (54406271, 13233593),
(54406296, 12682658), (54406366, 8839581), (54406456, 11274324), (54406551, 10190842), (54406557, 8788590), (54406618,
11197847), (54406664, 8875584), (54406794, 13022250), (54406985, 12687052), (54407085, 11184584), (54407246,
12616607), (54407263, 12617518), (54407549, 12586378), (54407661, 10433204), (54407716, 12587111), (54407924,
11103258), (54408019, 12596903), (54408071, 11174405), (54408150, 12665695), (54408344, 8816951), (54408498, 8822133),
(54408565, 12802346), (54408616, 8801556), (54408912, 12918480), (54409307, 11264085), (54409381, 10223914),
(54409388, 8884828), (54409404, 11311245), (54409440, 8807409), (54409524, 12456705), (54409556, 11204503), (54409965,
12656451), (54409992, 12917954), (54410081, 11261400), (54410217, 12702084), (54410227, 12711183), (54410642,
13602832), (54410752, 12696905), (54410789, 11210278), (54410944, 11193716), (54410944, 12458245), (54411034,
8891819), (54411112, 10422982), (54411251, 11215660), (54411291, 11253678), (54411401, 12667848), (54411485,
10422771), (54411605, 13228618), (54411673, 13235134), (54411888, 13227668), (54411910, 11234132), (54411964,
11166122), (54411981, 11236188), (54412142, 10228190), (54412179, 11200475), (54412575, 10187620), (54412639,
12762921), (54412644, 13022342), (54412653, 8896447), (54412718, 12612427), (54412828, 12667255), (54412970,
11096714), (54413035, 12651218), (54413462, 12806841), (54413594, 12875218), (54413950, 12808451), (54413964,
12794694), (54414068, 12934692), (54414326, 12756664), (54414625, 12617919), (54414660, 12938849), (54414822,
12751123), (54414961, 13597698), (54415007, 12740545), (54415071, 12940911), (54415072, 12764541), (54415225,
10233586), (54415399, 13218717), (54415399, 8903665), (54415503, 10413294), (54415591, 12879334), (54415748,
11305087), (54416165, 12951252), (54416323, 11304845), (54416352, 12737640), (54416424, 12779579), (54416474,
10244170), (54416625, 12463458), (54416695, 13595930), (54416834, 12768946), (54417008, 12883958), (54417009,
10253578), (54417088, 11170940), (54417201, 10181197), (54417290, 11205979), (54417328, 11204627), (54417492,
10263435), (54417496, 12667123), (54417594, 12648070), (54417601, 12892918), (54417643, 12867601), (54417823,
10408736), (54417912, 10266099), (54417994, 11097501), (54418118, 10279831), (54418174, 13216249), (54418220,
8908050), (54418325, 12647700), (54418355, 10180304), (54418449, 13023032), (54418453, 12618517), (54418942,
12816986), (54418951, 12899048), (54419002, 11192103), (54419101, 11176099), (54419358, 10283553), (54419605,
12818539), (54419759, 12628495), (54419887, 12910379), (54420145, 8913756), (54420523, 13157752), (54420589, 12668277)]

/-- borders.go:10715-11160 -/
def border24 : List (Nat × Nat) := [
(54420687, 12857359), (54420836, 10402726), (54420879, 12955609), (54420974, 12467597), (54421089, 12732550),
(54421656, 12916375), (54421662, 11300784), (54421792, 12848489), (54421965, 12830546), (54422128, 13160908),
(54422200, 13590746), (54422341, 12965686), (54422412, 12468503), (54422696, 12919717), (54422882, 12671335),
(54423216, 10397204), (54423245, 13182030), (54423335, 13029899), (54423387, 12975233), (54423657, 13178713),
(54423659, 12639319), (54423775, 12634991), (54423882, 13033029), (54423950, 10174750), (54423957, 11095748),
(54423962, 13190976), (54424089, 12979424), (54424213, 13213685), (54424380, 10282697), (54424381, 10288265),
(54424724, 10392848), (54424772, 13197033), (54424921, 12728359), (54425015, 8917699), (54425033, 10293536),
(54425271, 10173177), (54425275, 12987281), (54425327, 13172241), (54425579, 13587808), (54425856, 12989451),
(54425992, 12680615), (54426115, 13201798), (54426123, 13150532), (54426169, 8921211), (54426352, 13120486),
(54426420, 13119101), (54426955, 10383348), (54427002, 13123405), (54427230, 13117061), (54427304, 12726833),
(54427417, 11048264), (54427727, 11298585), (54427745, 12926785), (54427916, 12471958), (54428097, 12712812),
(54428159, 12684920), (54428344, 10373126), (54428372, 11044112), (54428829, 13585176), (54428877, 13149923),
(54429096, 12707547), (54429168, 10368154), (54429425, 10294256), (54429508, 12636128), (54429581, 11101177),
(54429667, 13034619), (54429772, 10169879), (54429889, 13211305), (54430134, 13206468), (54430144, 8927793),
(54430188, 11043361), (54430470, 10362540), (54430765, 12688885), (54431318, 11034896), (54431366, 12997762),
(54431385, 12627120), (54431840, 13155810), (54432314, 10353212), (54433031, 11295946), (54433099, 12983792),
(54433343, 10304361), (54433574, 11295399), (54433622, 13581793), (54433819, 12474705), (54433988, 8931081),
(54434167, 10342242), (54434324, 12618623), (54434636, 10314120), (54434681, 12973814), (54434810, 12918249),
(54435063, 10336763), (54435124, 10315747), (54435142, 10333015), (54435593, 10169240), (54435639, 13031229),
(54435660, 13580370), (54435775, 11092758), (54435809, 11101338), (54435817, 11024736), (54435848, 13030282),
(54435878, 10173480), (54436085, 11030390), (54436179, 11023642), (54436180, 8934116), (54436220, 12614447),
(54436395, 13000492), (54436443, 13161487), (54436612, 13001056), (54437043, 12993582), (54437196, 12980139),
(54437423, 11085226), (54437470, 12984792), (54438443, 13162368), (54438669, 13020417), (54439265, 11286107),
(54439320, 12608647), (54439591, 12916865), (54439679, 11015102), (54439739, 12477468), (54439977, 12819641),
(54440033, 11285496), (54440074, 12825592), (54440285, 12830938), (54440325, 12845071), (54440379, 12807742),
(54440394, 12853196), (54440472, 12795472), (54440685, 12860523), (54440699, 12786359), (54440938, 13577574),
(54441036, 8940957), (54441051, 12865209), (54441266, 12779953), (54441485, 11096971), (54441710, 12679058),
(54441738, 12680291), (54441932, 12753019), (54441982, 12920527), (54442005, 13123576), (54442006, 13027468),
(54442023, 12749553), (54442026, 12875331), (54442034, 12605365), (54442039, 12689938), (54442061, 12739149),
(54442097, 12762204), (54442117, 12728786), (54442121, 12668767), (54442124, 13039768), (54442220, 10180201),
(54442235, 13040944), (54442240, 12700075), (54442256, 11008302), (54442287, 11022043), (54442346, 13009519),
(54442353, 12719527), (54442413, 12880657), (54442624, 13011568), (54442687, 8943281), (54442758, 12659614),
(54442777, 12993272), (54442856, 12479164), (54442861, 11028266), (54442976, 11050994), (54442979, 13131371),
(54443112, 12891375), (54443292, 13121218), (54443880, 13164280), (54444050, 12649462), (54444287, 12599377),
(54444367, 13135332), (54444798, 11086672), (54444862, 11281003), (54444863, 12584699), (54444946, 12920538),
(54445475, 12480851), (54445616, 12639422), (54445906, 11005320), (54446026, 13121085), (54446106, 11035454),
(54446560, 13142196), (54446733, 10183680), (54447091, 13198893), (54447182, 12631808), (54447216, 10184246),
(54447231, 11088222), (54447281, 13032503), (54447317, 8950836), (54447389, 13052045), (54447438, 13030938),
(54447600, 9866842), (54447615, 12629606), (54447643, 11049951), (54447780, 13199945), (54447940, 13573827),
(54447957, 8951496), (54448006, 13154335), (54448067, 13007840), (54448077, 12599557), (54448145, 11004751),
(54448149, 9873017), (54448285, 12589647), (54448395, 11085602), (54448496, 9862536), (54449014, 13168315), (54449069,
12619859), (54449162, 13160774), (54449198, 10193567), (54449421, 13148726), (54449660, 13572997), (54449717,
9882882), (54449761, 11073060), (54450241, 12609301), (54450576, 9897082), (54450677, 13122028), (54450697, 13192279),
(54450782, 11276945), (54450909, 11055979), (54451008, 12484511), (54451027, 13202524), (54451082, 9903480),
(54452192, 9912979), (54452478, 13172753), (54452646, 12579352), (54452775, 13056658), (54452859, 13042300),
(54452967, 10196559), (54453078, 9853855), (54453168, 9915998), (54453451, 13204878), (54453763, 11276194), (54453785,
8957791), (54453868, 9852510), (54453879, 13192891), (54453909, 12566276), (54454283, 13179660), (54454325, 13185678),
(54454570, 11005491), (54455057, 11005609), (54455190, 13165797), (54455261, 12556316), (54455270, 13571032),
(54455928, 10193051), (54456030, 13127672), (54456286, 8962255), (54456560, 11275448), (54456806, 13064994),
(54457202, 12549138), (54457225, 9923349), (54457417, 8977146), (54457551, 12488715), (54458350, 13066275), (54458413,
8982321), (54458424, 13051837), (54458830, 13061276), (54459085, 9923598), (54459123, 13218010), (54459183, 10185793),
(54459311, 9845145), (54459344, 8879065), (54459347, 13570094), (54459349, 8883118), (54459381, 13205526), (54459495,
8891583), (54459593, 8552273), (54459927, 8550293), (54460099, 8867510), (54460143, 11006847), (54460242, 12490519),
(54460389, 13187363), (54460475, 8859106), (54460784, 8847873), (54460823, 9922766), (54461119, 10182435), (54461203,
8996550), (54461720, 8839440), (54461744, 8900115), (54461838, 8548493), (54462019, 9000747), (54462081, 8559660),
(54462222, 13223618), (54462244, 13236118), (54462283, 8726395), (54462334, 9933381), (54462374, 8725530), (54462626,
8828575), (54462755, 12491972), (54462756, 11268705), (54462822, 12537295), (54462873, 13134039), (54463060, 9842399),
(54463482, 9943676), (54463556, 13249380), (54463711, 13250620), (54463728, 8824442), (54463746, 13069593), (54463784,
8730472), (54464209, 13238002), (54464322, 13193699), (54464334, 13230932), (54464490, 9953331), (54464676, 13222474),
(54464744, 9954430), (54464781, 10177173), (54464820, 13569366), (54464870, 11266313), (54464944, 9841591), (54465072,
13254045), (54465150, 13213580), (54465249, 8819125), (54465503, 8914677), (54465749, 13192873), (54465838, 8551653),
(54465853, 8998014), (54465873, 8545102), (54465901, 13194565), (54465920, 11008141), (54466438, 8718508), (54466859,
9963245), (54467280, 8921791), (54467743, 12530719), (54467807, 9978729), (54468021, 9989578), (54468196, 9994024),
(54468215, 13060431), (54468287, 10172040), (54468474, 11260026), (54468839, 12496244), (54469403, 13072960),
(54469522, 13138731), (54469846, 11256421), (54469847, 13238842), (54469955, 9863024), (54470060, 12521155),
(54470336, 8807305), (54470365, 13225498), (54470426, 13569816), (54470528, 8916262), (54470618, 13220654), (54470677,
10003359), (54470710, 9861372), (54470727, 10167149), (54470836, 9001783), (54471300, 13252972), (54471357, 11008774),
(54471397, 9840867), (54471506, 13060252), (54471677, 13451058), (54471825, 9869888), (54472039, 8926845), (54472181,
9024054), (54473182, 13256606), (54473197, 9007333), (54473274, 10162021), (54473355, 13140980), (54473614, 12527886),
(54473955, 10013097), (54473995, 9017161), (54474393, 13452582), (54474478, 11250928), (54475110, 12501607),
(54475245, 8808383), (54475324, 9875217), (54475402, 13262525), (54475441, 9852318), (54475453, 13073258), (54475562,
10024100), (54475977, 13573458), (54476152, 13059803), (54476199, 8809267), (54476209, 10034872), (54476238,
13456746), (54476332, 9880855), (54476353, 9839855), (54476372, 13597629), (54476415, 13225341), (54476422, 9852244),
(54476449, 8926555), (54476456, 10036519), (54476621, 9854857), (54476696, 12503201), (54476843, 13267200), (54476897,
10044386), (54477111, 10152079), (54477490, 9882735), (54477639, 9007953), (54477700, 13224366), (54477818, 11010508),
(54477891, 10053283), (54478130, 13446011), (54478200, 13144813), (54478432, 13076028), (54478720, 8930031),
(54479024, 10063242), (54479028, 13146710), (54479145, 13577084), (54479330, 13496396), (54479444, 12525656),
(54479650, 13498824), (54480251, 11247162), (54480279, 10076461), (54480365, 13466593), (54480564, 13444442),
(54480616, 10084094), (54480683, 9892737), (54480981, 13256464), (54481057, 13072971), (54481100, 10142011),
(54481111, 13599689), (54481148, 12508531), (54481208, 9010007), (54481301, 13586872), (54481455, 8814502), (54481627,
10093331), (54481972, 13587783), (54482071, 13222577), (54482264, 10097962), (54482320, 9897407), (54482564, 8934859),
(54482591, 10138638), (54482628, 13075382), (54482702, 13236731), (54482846, 13234795), (54483180, 10103798),
(54483222, 11010873), (54483500, 13486531), (54483615, 12522340), (54484272, 13063335), (54484275, 10133469),
(54484316, 13505210), (54484364, 13154765), (54484368, 9903182), (54484549, 10114355), (54484593, 13205814),
(54484664, 9015911), (54484761, 13204804), (54485058, 12528894), (54485231, 12519744), (54485585, 13155491),
(54485846, 13255883), (54486254, 8819275), (54486361, 13442556), (54486508, 11244759), (54486716, 13598568),
(54486832, 13075434), (54487038, 13249259)]

/-- borders.go:11161-11606 -/
def border25 : List (Nat × Nat) := [
(54487105, 8818617), (54487140, 8939571), (54487168, 13075047), (54487758, 9913577), (54487851, 13227049), (54487891,
13597458), (54488073, 9914735), (54488270, 8940735), (54488348, 13437103), (54488369, 13195872), (54488866, 13196086),
(54489107, 8628245), (54489159, 8626588), (54489190, 13064295), (54489443, 9015430), (54489663, 13195438), (54489741,
11014585), (54489926, 8639174), (54489994, 13426906), (54490053, 9922802), (54490117, 13163571), (54490299, 8620380),
(54490410, 8642931), (54490489, 8936393), (54490899, 13500742), (54491197, 13167619), (54491551, 8650379), (54491928,
8617051), (54492017, 11242656), (54492112, 8808284), (54492240, 9933590), (54492259, 8951641), (54492502, 13226398),
(54492567, 13603094), (54492784, 13176349), (54492863, 13074104), (54493022, 13418124), (54493025, 8659344),
(54493055, 8807751), (54493368, 13416510), (54493671, 13065567), (54493726, 13226710), (54493890, 9939389), (54493990,
11017069), (54494318, 8952761), (54494346, 13226437), (54494388, 8668975), (54495133, 9012638), (54495555, 11018147),
(54495768, 9943150), (54496204, 8609799), (54496475, 13503854), (54496489, 11237640), (54497351, 8675746), (54497996,
11235269), (54498120, 13607869), (54498343, 8806336), (54498540, 13073439), (54498650, 9008917), (54498658, 8808415),
(54499176, 13411978), (54499197, 13609500), (54499627, 9952951), (54499843, 9953364), (54499944, 8678759), (54500083,
8958695), (54500252, 13228849), (54500547, 8607107), (54500596, 8959795), (54500838, 11022878), (54501137, 13077169),
(54501291, 8700053), (54501385, 13408316), (54501799, 9962947), (54501840, 8604832), (54501884, 9004459), (54501966,
13506281), (54502103, 13621078), (54502216, 13165030), (54502264, 11226622), (54503225, 8680946), (54503520,
13200398), (54503522, 13624460), (54503875, 13196924), (54504209, 11218655), (54504230, 11217950), (54504338,
13080291), (54505112, 13233299), (54505162, 13168244), (54505178, 13071129), (54505181, 8820740), (54505219,
13407959), (54505322, 13186601), (54505349, 8596933), (54505856, 9970347), (54505919, 13637349), (54505976, 8963751),
(54506101, 13203598), (54506154, 13156522), (54506609, 11207629), (54506794, 11027524), (54507011, 13207800),
(54507117, 8834662), (54507166, 13169436), (54507350, 8594238), (54507842, 13509006), (54507968, 8997656), (54508252,
13155934), (54508459, 13639725), (54508544, 9973189), (54508604, 13511505), (54508698, 8687133), (54508839, 11197909),
(54509028, 13640836), (54509085, 8688175), (54509298, 13218246), (54509372, 8839104), (54509956, 13167513), (54510002,
13082062), (54510035, 11194047), (54510434, 8841292), (54510973, 13408916), (54511089, 13231098), (54511171, 8957273),
(54511176, 13227010), (54511389, 9979220), (54511553, 13409741), (54511777, 8960254), (54511914, 11031762), (54512143,
9984286), (54512970, 8589780), (54512990, 13514224), (54512998, 8993483), (54513223, 13163240), (54513572, 8848719),
(54513747, 13303025), (54513793, 13076609), (54513894, 13650759), (54513903, 13651181), (54514414, 11188150),
(54514489, 13301435), (54514731, 8689771), (54514780, 13088301), (54515748, 13087984), (54515862, 13083747),
(54515953, 11185189), (54516460, 13310290), (54516506, 8969416), (54516621, 8854298), (54516688, 13414528), (54516894,
13298696), (54517874, 9990580), (54517969, 13349925), (54518030, 13349640), (54518047, 8971645), (54518134, 8991117),
(54518226, 11177947), (54518416, 11038736), (54518477, 13661704), (54518720, 13349115), (54518812, 13353015),
(54518836, 9993386), (54518977, 13511326), (54519184, 13664371), (54519688, 8587895), (54519730, 8858070), (54520165,
13307377), (54520199, 13373145), (54520382, 13311452), (54520403, 13164153), (54520581, 8987733), (54520691, 8690933),
(54520908, 13293659), (54520926, 8685196), (54521118, 13364009), (54521362, 13093082), (54521407, 13289082),
(54521837, 11167862), (54521993, 11158056), (54522074, 11159826), (54522217, 11156886), (54522427, 13081050),
(54522595, 13411808), (54522681, 8863343), (54523163, 13510974), (54523307, 11148314), (54523393, 11045213),
(54523675, 9999737), (54523881, 11138287), (54523922, 13374467), (54524800, 13409918), (54524810, 13345602),
(54524919, 11047917), (54524919, 8587530), (54524966, 13507346), (54525079, 13513563), (54525320, 13671490),
(54525344, 11128309), (54525577, 13163190), (54526138, 13305173), (54526294, 8869164), (54526791, 13289851),
(54527166, 8508319), (54527274, 11118214), (54527274, 13381144), (54527332, 13092624), (54527547, 13672942),
(54527565, 13083115), (54527933, 8699104), (54528149, 13099499), (54528208, 10003210), (54528263, 8516008), (54528272,
8868826), (54528482, 11111369), (54528744, 11106744), (54529197, 13406473), (54529220, 10004168), (54529240,
11054858), (54529362, 8511968), (54529669, 11098106), (54530042, 13351413), (54530298, 13386298), (54530578,
11088257), (54530640, 13352041), (54530642, 8589613), (54530661, 13677091), (54530827, 13509513), (54531643,
11077400), (54531842, 11058721), (54532587, 13290617), (54532699, 13305160), (54532737, 13101384), (54532945,
13291006), (54533423, 13401440), (54533856, 13084414), (54533991, 13160290), (54534042, 8596799), (54534194, 8874937),
(54534341, 8607523), (54534431, 13111240), (54534688, 13399560), (54534923, 11069557), (54534969, 8622710), (54535166,
11064632), (54535168, 13159848), (54535212, 13389128), (54535614, 8626405), (54535842, 10008736), (54535964,
13359033), (54536386, 13678734), (54536758, 13506775), (54537309, 13158617), (54537344, 8632015), (54537687, 8705834),
(54537948, 8705772), (54538018, 13307302), (54538368, 13290430), (54538502, 13116421), (54538782, 13361850),
(54539109, 8877375), (54539120, 13087041), (54540148, 13381565), (54540234, 8877641), (54540521, 13140320), (54540598,
8636538), (54540599, 13140975), (54540728, 13390978), (54540941, 10011505), (54541123, 13379608), (54541700,
13361533), (54542092, 13276095), (54542294, 13681093), (54542493, 13121049), (54542975, 10013317), (54543005,
13504449), (54543087, 8822650), (54543212, 8640008), (54543495, 13141893), (54543686, 13124939), (54543703, 13304161),
(54543810, 8704381), (54544002, 13115735), (54544633, 8816562), (54544819, 13272242), (54544852, 13271278), (54544934,
13091518), (54544947, 8826940), (54544991, 13371236), (54545072, 13168473), (54545266, 8826608), (54545278, 13158718),
(54545494, 13171655), (54545651, 8813980), (54545782, 13503395), (54546244, 13352290), (54546268, 8651816), (54546308,
8706803), (54546623, 10021119), (54546704, 8826857), (54546750, 8877943), (54546883, 8657063), (54547053, 13379620),
(54547135, 13182849), (54547590, 13261781), (54547771, 13184721), (54547908, 13678885), (54548091, 13354163),
(54548160, 13343887), (54548254, 13337866), (54548314, 13338195), (54548316, 13301206), (54548430, 8806137),
(54548478, 13502128), (54548970, 13193270), (54549272, 8663473), (54549274, 10025811), (54549336, 8796459), (54549547,
13202622), (54549613, 8667195), (54549657, 13123643), (54549755, 13116324), (54550261, 13212118), (54550367, 8708471),
(54550511, 13296704), (54550557, 13493949), (54550663, 8792393), (54551098, 8820546), (54551137, 8876553), (54551192,
13256442), (54551266, 13448560), (54551704, 13251409), (54552007, 13095667), (54552030, 8876091), (54552561, 8816369),
(54552694, 13479642), (54552928, 13226253), (54552960, 13454854), (54553012, 13474003), (54553053, 13377494),
(54553190, 13443602), (54553360, 10027236), (54553495, 13362146), (54553746, 13233606), (54553828, 13676362),
(54553869, 8797192), (54554650, 13353201), (54555431, 8706824), (54555513, 8681022), (54555550, 13302510), (54555716,
8704636), (54555954, 13364243), (54556201, 13097297), (54556286, 13116330), (54556330, 13303790), (54556633,
13437831), (54556640, 8692938), (54556921, 8550284), (54557239, 8562190), (54557621, 13246657), (54557745, 8566502),
(54557774, 8871800), (54558001, 13163218), (54558416, 13162296), (54558773, 13377504), (54559206, 13370294),
(54559307, 8543588), (54559515, 13356517), (54559652, 13171820), (54559868, 13678043), (54559915, 8572821), (54559995,
13161297), (54559998, 10026602), (54560010, 13433186), (54560193, 13172902), (54561105, 13312409), (54561226,
13243153), (54561492, 13253372), (54561594, 13114142), (54562508, 13099386), (54562640, 13314565), (54562928,
13256540), (54562957, 13431655), (54563033, 13265010), (54563542, 8870379), (54563818, 13274458), (54564200,
13244840), (54564401, 13112576), (54564401, 10026147), (54564463, 13676787), (54564710, 8538028), (54565250,
13183345), (54565392, 13174654), (54565407, 13359999), (54565741, 13675819), (54565758, 8572569), (54566051, 8533912),
(54566608, 13161377), (54566631, 13322464), (54567600, 13324729), (54567653, 13284223), (54567753, 13100615),
(54568053, 13107577), (54568882, 13425230), (54569290, 13163419), (54569411, 8523556), (54569688, 10026101),
(54569693, 8874242), (54570095, 13460661), (54570106, 13249206), (54570370, 8516351), (54570426, 13455311), (54570479,
13335303), (54570484, 8563837), (54570484, 13415092), (54570986, 13185876), (54570986, 13466539), (54570999, 8563142),
(54571376, 13363873), (54571433, 13297595), (54571563, 8513796), (54571583, 13163628), (54571661, 13340039),
(54571676, 13164067), (54571820, 13665756), (54572034, 13444492), (54572237, 13489010), (54572280, 13398005),
(54572298, 13195137), (54572299, 13489702), (54572525, 13484970), (54572869, 13305764), (54572917, 13365947),
(54573111, 13469268), (54573209, 13114180), (54573224, 8564723), (54573461, 13395272), (54573646, 13144849),
(54573709, 8876986), (54573729, 13508839), (54573954, 13434875), (54574025, 13505846), (54574673, 13101750),
(54574995, 8532181), (54575052, 13430970), (54575308, 13517248), (54575518, 13251336)]

/-- borders.go:11607-12052 -/
def border26 : List (Nat × Nat) := [
(54575793, 13177360), (54575828, 8539077), (54576003, 10025655), (54576306, 8525728), (54576377, 8509014), (54576476,
13391989), (54576530, 8541617), (54576559, 13370246), (54576723, 8545008), (54576740, 13143706), (54576841, 13181496),
(54576876, 13345595), (54577007, 13656132), (54577036, 13527456), (54577212, 8558879), (54577258, 13203734),
(54577270, 13345907), (54577303, 13425022), (54577350, 8878220), (54577391, 8523458), (54577698, 13113616), (54577760,
13155623), (54577801, 13151964), (54578128, 13204586), (54578162, 13651933), (54578559, 13313554), (54578615,
13539800), (54579097, 13187490), (54579122, 13112116), (54579331, 13315584), (54579473, 13365424), (54579568,
13143803), (54579663, 13101036), (54579912, 13647174), (54580101, 13547592), (54580566, 13385421), (54580838,
13326120), (54580947, 8880935), (54581008, 13558687), (54581272, 13253469), (54581363, 10027952), (54581465,
13416226), (54581475, 10022705), (54581510, 13562810), (54581910, 13569453), (54582151, 13383815), (54582513,
13211312), (54582833, 13578670), (54583112, 13197295), (54583403, 13125114), (54583522, 13334564), (54583685,
13122934), (54583890, 13151068), (54584167, 13604002), (54584291, 13141247), (54584376, 13590644), (54584387,
13608524), (54584533, 13124695), (54584609, 13638827), (54584892, 13637456), (54585225, 13625853), (54585731,
13216045), (54585913, 13101257), (54587037, 13226634), (54587083, 13227006), (54587097, 13225253), (54587106,
8882072), (54587160, 13255760), (54588002, 13205391), (54588132, 13383670), (54588587, 8886484), (54588952, 13206766),
(54589198, 13403907), (54589562, 13332396), (54589730, 13256520), (54589755, 13146124), (54590060, 13139005),
(54590382, 13129578), (54591094, 10025918), (54591756, 13100122), (54592621, 8885456), (54592753, 8890608), (54592920,
13228841), (54593136, 13258893), (54593339, 13212905), (54593524, 13383913), (54593988, 13236920), (54594947,
8819164), (54594956, 13105873), (54595055, 13396693), (54595146, 10025935), (54595447, 13332278), (54595679,
13147836), (54596329, 8814877), (54596378, 13137661), (54596715, 13108270), (54597285, 13217098), (54597372,
13338708), (54598289, 8822865), (54598389, 8812620), (54598548, 13265142), (54598785, 13237080), (54599009, 8880598),
(54599098, 13236790), (54599478, 13381087), (54599727, 10026638), (54600001, 13219613), (54600502, 8825988),
(54600795, 8857788), (54600815, 13348187), (54600920, 13268410), (54601213, 8842641), (54601314, 13116433), (54601555,
13390445), (54602069, 8852489), (54602269, 13147390), (54602342, 8867488), (54602799, 13118199), (54603575, 8808699),
(54603577, 13145669), (54603604, 13378384), (54603765, 8821589), (54604238, 8883025), (54604256, 13271803), (54604452,
8824847), (54604683, 13127142), (54604787, 13223162), (54605093, 10027722), (54605296, 8874538), (54605321, 13232898),
(54605771, 13376294), (54606479, 13353148), (54606792, 8374727), (54607337, 8369438), (54607407, 8885263), (54608931,
13276969), (54608944, 8364555), (54609877, 8383730), (54610113, 8833927), (54610414, 13278324), (54610460, 13384264),
(54610580, 13226183), (54610620, 10029670), (54610860, 13229600), (54610883, 8834807), (54611241, 8391377), (54611561,
13372075), (54611995, 8360418), (54612043, 13354874), (54612509, 13363701), (54612692, 8873889), (54613548, 13382389),
(54614482, 8844942), (54614667, 13281821), (54615682, 8355284), (54615889, 8844054), (54615931, 8845087), (54616142,
8400161), (54616285, 13226495), (54616775, 10032586), (54617162, 8401318), (54617649, 8390763), (54617676, 8547748),
(54618954, 13380288), (54620105, 10033563), (54620280, 13283225), (54620498, 8552124), (54620857, 8389386), (54621821,
8541587), (54622287, 8345027), (54622490, 13223043), (54622929, 8840496), (54623083, 8538843), (54623425, 8557371),
(54623922, 13378279), (54624597, 8392058), (54625223, 10033433), (54625358, 8531457), (54625385, 13229643), (54626055,
8400857), (54626560, 13287735), (54626709, 8568978), (54626787, 8401707), (54627333, 8720534), (54627411, 8390295),
(54627412, 8391165), (54627586, 8338126), (54627780, 13232864), (54627791, 8723158), (54628045, 10033063), (54628299,
8834514), (54628509, 8572006), (54629039, 8530528), (54629429, 13220970), (54629450, 8575060), (54629576, 8831860),
(54630554, 8712393), (54630773, 13376852), (54631447, 8710840), (54631475, 8531725), (54631516, 8733346), (54631739,
8733525), (54631858, 13288236), (54631963, 8582255), (54632384, 8380945), (54632480, 8379907), (54632722, 13240243),
(54632812, 8604301), (54633243, 8827806), (54633447, 13241626), (54633628, 8601397), (54633870, 13219625), (54634381,
8615320), (54634666, 13376537), (54634695, 13219059), (54634718, 10031466), (54634773, 8537198), (54635438, 8729216),
(54635452, 8548934), (54635462, 8553436), (54635481, 8762776), (54635551, 8763169), (54635584, 8595771), (54635741,
8623365), (54636037, 8626625), (54636141, 8619675), (54636868, 8565218), (54637157, 8632301), (54637547, 8773663),
(54637574, 8733098), (54637599, 8712784), (54637618, 13288056), (54637820, 13251600), (54637825, 8732712), (54637866,
8325085), (54637876, 8769594), (54638420, 8379843), (54638689, 8824316), (54638771, 8574849), (54639074, 8645234),
(54639123, 8581564), (54639538, 8822932), (54639767, 13255823), (54639907, 13220474), (54640989, 13220901), (54641116,
8379541), (54641162, 13380104), (54641348, 10030891), (54641471, 8597057), (54641782, 8602108), (54641949, 8652166),
(54642221, 8654934), (54642361, 13261448), (54643286, 8733214), (54643522, 8317526), (54643526, 13285698), (54643836,
8612054), (54644284, 8375329), (54644340, 13270760), (54644671, 8825040), (54644695, 13272501), (54644816, 13382836),
(54645610, 13228043), (54645706, 8822685), (54645863, 8621548), (54646070, 13383731), (54646245, 10031316), (54647371,
8366046), (54647981, 8631319), (54648180, 8631981), (54648284, 13231873), (54648459, 8660131), (54648738, 8310408),
(54649522, 8360932), (54650243, 8816025), (54650268, 8308352), (54650603, 8661805), (54650822, 8641558), (54651078,
13237950), (54652279, 13393374), (54652465, 13394114), (54652939, 10032357), (54653787, 8812863), (54653881, 8647129),
(54654459, 13242378), (54654747, 13404073), (54654795, 8662951), (54655220, 8302327), (54655440, 13415542), (54656019,
8657693), (54656116, 10033530), (54656539, 8804265), (54656640, 13420809), (54656686, 8359495), (54657023, 13245433),
(54657449, 10032333), (54657475, 10034179), (54658958, 13424690), (54659365, 8358365), (54659579, 10043397),
(54659688, 8801079), (54660039, 10014377), (54660204, 8664216), (54660354, 8661218), (54660372, 13253607), (54660695,
8297135), (54661297, 8355614), (54661601, 8798303), (54662367, 13430229), (54663072, 8792355), (54663365, 10025957),
(54663408, 13261178), (54663438, 10034096), (54663458, 10022099), (54664743, 13263969), (54666139, 8781215),
(54667323, 8778350), (54667486, 13271891), (54667587, 8293039), (54667669, 8353577), (54668104, 13432005), (54669044,
13275781), (54669504, 10034669), (54671368, 8771368), (54671856, 8687028), (54672041, 8294555), (54672331, 13284905),
(54672565, 8708631), (54672779, 8351286), (54672976, 13287102), (54673128, 8692592), (54673197, 8768101), (54673530,
13301677), (54673873, 13433649), (54673877, 13305718), (54674328, 13322860), (54674694, 13327786), (54674722,
10034656), (54675577, 13436981), (54675666, 13337908), (54676461, 8711313), (54676566, 8298193), (54676875, 13343192),
(54677002, 8761250), (54677357, 13346578), (54678134, 8346781), (54678232, 8695964), (54678511, 8345670), (54678631,
8299991), (54679044, 8713861), (54679161, 8554776), (54679348, 13435738), (54679373, 8562617), (54679490, 8757126),
(54679664, 8543710), (54679786, 13356054), (54679994, 8484598), (54680018, 8502071), (54680048, 8498952), (54680084,
8522711), (54680484, 8537630), (54680578, 8481454), (54680806, 8701250), (54680996, 8517254), (54681119, 8507749),
(54681151, 8509520), (54681252, 8525984), (54681300, 13366337), (54681419, 8531821), (54681433, 8477473), (54681787,
8751224), (54681967, 13369926), (54682092, 13405421), (54682119, 13407253), (54682581, 8568781), (54682632, 10036520),
(54682792, 13392660), (54683298, 13385471), (54683313, 13417126), (54683893, 8706532), (54684173, 8466109), (54684178,
8718908), (54684320, 8569856), (54684728, 8307980), (54684747, 8338275), (54685172, 8753284), (54685464, 8721109),
(54686421, 8461506), (54686604, 10036654), (54687826, 8571591), (54689006, 8458004), (54689541, 8750860), (54689931,
8317520), (54690059, 8714668), (54690118, 8336861), (54690622, 8750399), (54691147, 8337729), (54691626, 10033158),
(54691958, 8453774), (54692133, 8446539), (54692502, 10031553), (54693653, 8434817), (54693901, 8576062), (54694906,
8751031), (54694921, 8427308), (54695977, 8331017), (54696248, 8751753), (54696540, 8340294), (54696958, 10022645),
(54697822, 8417035), (54698358, 10020170), (54699823, 8575181), (54700342, 8404268), (54701863, 8749015), (54702595,
10012574), (54702708, 8349435), (54702771, 8398960), (54702965, 8339107), (54704002, 10010514), (54704409, 8396612),
(54705714, 8579005), (54707866, 8355806), (54708487, 8745100), (54708544, 8395262), (54708638, 8357065), (54709175,
10002196), (54709831, 10000443), (54710504, 8739740), (54711964, 8583282), (54713212, 8729584), (54713406, 8731678),
(54713801, 8728356), (54714529, 8396051), (54715174, 8588699), (54715434, 9992551), (54715959, 8396316), (54716343,
9991742), (54716420, 8718903), (54717322, 8594896), (54719015, 8718260), (54720061, 8720190), (54720158, 8397988),
(54721849, 9987102), (54723179, 8590947), (54723938, 8708830), (54724403, 8587301)]

/-- borders.go:12053-12498 -/
def border27 : List (Nat × Nat) := [
(54724572, 8699297), (54724646, 8698085), (54726464, 8402532), (54729017, 8581129), (54729108, 9983001), (54730361,
8694246), (54730384, 8687656), (54731219, 8406146), (54731265, 9982170), (54732779, 8407441), (54733095, 8699601),
(54734836, 9980918), (54736309, 8702699), (54736553, 8586231), (54738223, 8413585), (54740036, 8416439), (54740716,
8586179), (54740736, 9979733), (54741863, 8295919), (54742277, 8704886), (54743059, 8293369), (54744263, 8425701),
(54746326, 8579288), (54746811, 8435370), (54747653, 8575632), (54748182, 8287413), (54748500, 8451292), (54748511,
8294919), (54748701, 8705682), (54749114, 8456081), (54749588, 8282379), (54749702, 8487514), (54750246, 8484725),
(54750388, 8465138), (54750830, 8565661), (54750842, 8484424), (54750898, 8496160), (54750985, 9978040), (54751086,
8468516), (54751970, 9872303), (54751972, 9871533), (54752135, 8559117), (54752474, 8508556), (54752754, 8555823),
(54753342, 9860280), (54753515, 8517635), (54753617, 8294217), (54754101, 8279025), (54754232, 8545325), (54754919,
8700143), (54754963, 8526484), (54755001, 9849590), (54756354, 9844371), (54756391, 9877641), (54757251, 9976866),
(54757968, 8697355), (54758174, 9838325), (54759068, 8278853), (54759554, 8296390), (54759565, 8695950), (54762025,
9830711), (54762342, 9880991), (54762488, 9830147), (54762783, 9972157), (54762844, 9903865), (54763646, 9882175),
(54765528, 8300052), (54765653, 8693724), (54765741, 8280049), (54766849, 9900513), (54768026, 9893085), (54768180,
9823126), (54768239, 9888634), (54768336, 9906477), (54768774, 9964905), (54770150, 9820289), (54771049, 8280647),
(54771311, 8300203), (54771616, 9961871), (54771820, 8690561), (54773939, 9900571), (54774452, 9959668), (54775356,
9812667), (54776949, 8300943), (54777555, 9901999), (54777594, 8280767), (54777830, 8686771), (54778342, 9808633),
(54779788, 9957165), (54779919, 9806624), (54780763, 9903899), (54780768, 9951594), (54783335, 8681662), (54784122,
8292337), (54784169, 9942281), (54784361, 8281714), (54785407, 9800624), (54785981, 9800167), (54786032, 9902050),
(54786322, 9937909), (54786365, 8281349), (54787703, 9901532), (54788299, 9436925), (54788574, 8677409), (54788795,
9435600), (54788988, 8292252), (54789183, 9931213), (54789848, 9437589), (54789930, 9434261), (54790060, 8670030),
(54790206, 8281593), (54791258, 9796118), (54791528, 9903834), (54791876, 9925141), (54792541, 8665785), (54793155,
9921530), (54794376, 8660042), (54794662, 8294701), (54795523, 9774911), (54795779, 9780774), (54795843, 8282256),
(54795851, 9432286), (54796116, 9437042), (54796560, 9770047), (54797023, 9768355), (54797206, 9789382), (54797427,
9792421), (54797911, 9906664), (54799938, 8654882), (54800247, 9343714), (54800935, 9758690), (54800968, 8282289),
(54801326, 9340092), (54801377, 8297903), (54801675, 9294939), (54801801, 9428572), (54801981, 9345197), (54802092,
9293744), (54802776, 9748822), (54802853, 9749354), (54802932, 9440889), (54803229, 9333702), (54804776, 9739029),
(54805788, 8650869), (54805814, 8282495), (54806101, 9447422), (54806154, 9729297), (54806319, 9322732), (54806655,
9285351), (54806819, 8298858), (54807009, 9315239), (54807131, 9343227), (54807497, 9452971), (54807711, 9307768),
(54807733, 9436676), (54807876, 9347800), (54808303, 9719042), (54808390, 9300297), (54808607, 9711942), (54809680,
9250108), (54809763, 9282137), (54810027, 9253374), (54810091, 9707201), (54810254, 9433610), (54810709, 9264525),
(54811487, 8648266), (54812048, 8296851), (54812145, 9270495), (54812995, 9698823), (54813010, 8282962), (54813021,
9248320), (54813234, 9430070), (54813509, 9354030), (54813912, 9456733), (54814252, 9354655), (54814348, 8643499),
(54814686, 9693022), (54815970, 9688778), (54817335, 8300332), (54817410, 8639702), (54817514, 9364880), (54818320,
8300236), (54818356, 8299501), (54818649, 8283750), (54818937, 9367199), (54819120, 9678304), (54819126, 9244433),
(54819262, 9460434), (54820015, 9425860), (54820198, 9672522), (54820249, 9653920), (54820919, 9667958), (54821295,
9242622), (54821300, 9424543), (54821620, 8634342), (54821891, 9471765), (54822026, 9495820), (54822113, 9496245),
(54822575, 9647799), (54822596, 9485276), (54823532, 8631441), (54824499, 8284328), (54824817, 9239889), (54824858,
8294287), (54825407, 9502132), (54825539, 9374871), (54825862, 9639978), (54825944, 9420720), (54826775, 9637519),
(54827605, 8623197), (54829468, 8294206), (54829733, 9612545), (54829777, 8621846), (54829851, 9607121), (54829923,
8284437), (54830414, 9627062), (54830909, 9374636), (54831008, 9506530), (54831038, 9419434), (54831060, 9235855),
(54831275, 9374220), (54831290, 9507166), (54831735, 9622031), (54832016, 9602460), (54835386, 9235405), (54835630,
8296955), (54835990, 9524349), (54836158, 8614687), (54836331, 8285030), (54836475, 9418455), (54836920, 8612904),
(54837054, 9522564), (54837115, 9513890), (54837452, 9597399), (54837460, 9380882), (54838251, 9596242), (54838358,
9390697), (54838850, 9403649), (54839375, 9526469), (54840133, 9405030), (54840367, 8609321), (54841711, 8285560),
(54841971, 8296095), (54841990, 9242609), (54842399, 9407455), (54842932, 9531340), (54843651, 9591531), (54845118,
8298815), (54846621, 9536644), (54847012, 8412323), (54847308, 8409833), (54847860, 8285896), (54848191, 8298762),
(54848297, 8606359), (54848770, 8402341), (54848948, 9542053), (54848966, 8421481), (54848970, 9241038), (54849226,
8422365), (54849753, 9589608), (54850263, 8398601), (54850354, 9546768), (54852703, 9227511), (54853178, 9558060),
(54854358, 8302206), (54854443, 8605855), (54854521, 8286222), (54854661, 8434273), (54854786, 9565170), (54855189,
8437817), (54855756, 9591389), (54856133, 9567063), (54856226, 8440467), (54856478, 9213699), (54856971, 8382741),
(54858069, 9208420), (54858233, 8379170), (54858284, 8605596), (54859000, 8307294), (54859003, 9205189), (54859009,
9195930), (54859352, 8451967), (54859416, 8308496), (54859905, 8287015), (54860724, 8318304), (54860803, 8461271),
(54860903, 8375355), (54860928, 9188188), (54860958, 9571755), (54861316, 8461486), (54861332, 9594899), (54861949,
8328430), (54862792, 8287591), (54864006, 9581269), (54864301, 9597380), (54864696, 8608642), (54865288, 8287808),
(54865574, 8333809), (54866101, 9172724), (54866223, 8470746), (54866828, 9586581), (54866897, 8370600), (54866908,
9169246), (54867031, 9600122), (54867382, 8472286), (54868836, 9160295), (54869817, 8608148), (54870014, 8368337),
(54870176, 9090602), (54870624, 9155455), (54870665, 9085824), (54871057, 8332622), (54871134, 9063522), (54871170,
9071701), (54871899, 8480442), (54871941, 9149344), (54871952, 9048616), (54871975, 9099571), (54871997, 9608732),
(54872046, 8366991), (54872623, 9123231), (54872778, 9586390), (54872846, 9058241), (54872898, 9118608), (54873013,
9610524), (54873176, 9130081), (54873704, 8483084), (54873894, 9586929), (54874257, 8288538), (54874349, 8346553),
(54875440, 8604318), (54875586, 9606557), (54875748, 9036576), (54876132, 8348565), (54876692, 8435297), (54876779,
8440145), (54876955, 8491956), (54877062, 8457156), (54877086, 8461729), (54877264, 8345120), (54877429, 8428624),
(54877669, 8476597), (54878098, 8288470), (54878926, 8420163), (54879494, 8497837), (54880200, 8500041), (54880230,
9029841), (54880552, 8601381), (54880929, 8599156), (54881467, 9026899), (54881700, 8411239), (54882548, 8511540),
(54882836, 8289587), (54883206, 8590693), (54883351, 8524962), (54883640, 8533380), (54883954, 8543420), (54884220,
8551588), (54884485, 8404534), (54884650, 8564022), (54884806, 8572018), (54886525, 9014510), (54886761, 8397495),
(54887838, 8597310), (54889145, 9000393), (54889388, 8601294), (54889480, 8388491), (54889838, 8996672), (54889876,
8387716), (54890887, 8291029), (54892116, 8613264), (54892204, 8983991), (54892645, 8776991), (54892750, 8727911),
(54893031, 8735045), (54893548, 8620804), (54893741, 8291750), (54894326, 8623908), (54894482, 8375811), (54894507,
8759563), (54894773, 8745356), (54895228, 8719784), (54895415, 8777068), (54895759, 8374352), (54896742, 8973093),
(54896760, 8859834), (54896842, 8755127), (54896968, 8854767), (54897922, 8967643), (54898280, 8965540), (54898368,
8786567), (54898869, 8709817), (54898955, 8630086), (54899088, 8631419), (54899253, 8872056), (54899997, 8843533),
(54900036, 8294280), (54900891, 8368521), (54900917, 8707681), (54900935, 8955533), (54901088, 8792731), (54901343,
8875677), (54901899, 8840863), (54901988, 8880277), (54902033, 8795392), (54902037, 8913059), (54902327, 8912883),
(54902396, 8940492), (54902530, 8886659), (54902564, 8920848), (54902617, 8936296), (54902736, 8935342), (54902847,
8700891), (54903300, 8366730), (54903883, 8903946), (54903971, 8818532), (54904185, 8813612), (54905593, 8295859),
(54905680, 8829446), (54906929, 8691651), (54908266, 8363604), (54908676, 8660035), (54909862, 8637321), (54910413,
8681047), (54911210, 8638322), (54911257, 8671371), (54911968, 8298987), (54912478, 8362282), (54918223, 8360976),
(54923274, 8305461), (54923522, 8366255), (54924072, 8362152), (54924154, 8365865), (54929441, 8308913), (54929892,
8361095), (54934925, 8312554), (54935906, 8360214), (54940235, 8315401), (54941870, 8362446), (54943062, 8317133),
(54947620, 8360087), (54948718, 8321042), (54953345, 8324079), (54953471, 8358806), (54959051, 8359025), (54960173,
8328931)]

/-- borders.go:12499-12502 -/
def border28 : List (Nat × Nat) := [
(54964441, 8331849), (54965159, 8355024), (54966221, 8333884), (54966620, 8353271)]

/-- borders.go:11-12502 -/
def borderTable : List (Nat × Nat) := List.flatten [
  border0, border1, border2, border3, border4, border5, border6, border7, border8, border9, border10, border11,
  border12, border13, border14, border15, border16, border17, border18, border19, border20, border21,
  border22, border23, border24, border25, border26, border27, border28]

end Radolan.Cli
