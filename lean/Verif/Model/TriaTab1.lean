import Verif.Model.TriaTabBase

/-! Generated by tools/quad_tables.py from /repo/lib/lf/quad/quad_rules_tria.cc. -/

namespace Verif

/-- `HardcodedQuadRule<kTria, 1>()`; /repo/lib/lf/quad/quad_rules_tria.cc:22-31. -/
def triaTab1 : List TabRow := [
  ⟨5000000000000000000000000, 3333333333333332593200000, 3333333333333334258500000⟩]

/-- `HardcodedQuadRule<kTria, 2>()`; /repo/lib/lf/quad/quad_rules_tria.cc:35-50. -/
def triaTab2 : List TabRow := [
  ⟨1666666666666666574100000, 1666666666666666019000000, 1666666666666667961900000⟩,
  ⟨1666666666666666574100000, 6666666666666665186400000, 1666666666666666574100000⟩,
  ⟨1666666666666666574100000, 1666666666666668517000000, 6666666666666667406800000⟩]

/-- `HardcodedQuadRule<kTria, 4>()`; /repo/lib/lf/quad/quad_rules_tria.cc:54-78. -/
def triaTab4 : List TabRow := [
  ⟨1116907948390057497800000, 4459484909159648347000000, 1081030181680702889600000⟩,
  ⟨1116907948390057497800000, 4459484909159648902100000, 4459484909159649457200000⟩,
  ⟨1116907948390057497800000, 1081030181680701918200000, 4459484909159650567500000⟩,
  ⟨549758718276609423260000, 915762135097706597710000, 915762135097709095710000⟩,
  ⟨549758718276609423260000, 8168475729804584029000000, 915762135097707152820000⟩,
  ⟨549758718276609423260000, 915762135097709650820000, 8168475729804585139200000⟩]

/-- `HardcodedQuadRule<kTria, 5>()`; /repo/lib/lf/quad/quad_rules_tria.cc:82-109. -/
def triaTab5 : List TabRow := [
  ⟨629695902724135836430000, 1012865073234562596200000, 1012865073234564955400000⟩,
  ⟨629695902724135836430000, 7974269853530872032000000, 1012865073234562457400000⟩,
  ⟨629695902724135836430000, 1012865073234565094200000, 7974269853530874252500000⟩,
  ⟨661970763942530959770000, 4701420641051150539600000, 597158717897698851360000⟩,
  ⟨661970763942530959770000, 4701420641051150539600000, 4701420641051151094700000⟩,
  ⟨661970763942530959770000, 597158717897697810530000, 4701420641051152760100000⟩,
  ⟨1125000000000000166500000, 3333333333333332593200000, 3333333333333334258500000⟩]

/-- `HardcodedQuadRule<kTria, 6>()`; /repo/lib/lf/quad/quad_rules_tria.cc:113-155. -/
def triaTab6 : List TabRow := [
  ⟨856665620764904961470000, 2194299825497829092800000, 2194299825497831035700000⟩,
  ⟨856665620764904961470000, 5611400349004339593900000, 2194299825497829648000000⟩,
  ⟨856665620764904961470000, 2194299825497830203100000, 5611400349004341814300000⟩,
  ⟨403655447965154817740000, 4801379641122150432300000, 397240717755699621060000⟩,
  ⟨403655447965154817740000, 4801379641122150987400000, 4801379641122150432300000⟩,
  ⟨403655447965154817740000, 397240717755698857780000, 4801379641122152652800000⟩,
  ⟨203172798968303258690000, 1416190159239681389800000, 193717243612408114570000⟩,
  ⟨203172798968303258690000, 8390092597147910114000000, 1416190159239681112300000⟩,
  ⟨203172798968303258690000, 193717243612409606430000, 8390092597147911224200000⟩,
  ⟨203172798968303258690000, 8390092597147911224200000, 193717243612408114570000⟩,
  ⟨203172798968303258690000, 1416190159239681389800000, 8390092597147912334400000⟩,
  ⟨203172798968303258690000, 193717243612405581880000, 1416190159239684442900000⟩]

/-- `HardcodedQuadRule<kTria, 7>()`; /repo/lib/lf/quad/quad_rules_tria.cc:159-210. -/
def triaTab7 : List TabRow := [
  ⟨265904166483802266440000, 4731956536892510389900000, 536086926214979359040000⟩,
  ⟨265904166483802266440000, 4731956536892510389900000, 4731956536892510945000000⟩,
  ⟨265904166483802266440000, 536086926214978110040000, 4731956536892513165400000⟩,
  ⟨204590851970284336170000, 577976400545063204170000, 577976400545066187900000⟩,
  ⟨204590851970284336170000, 8844047198909870122200000, 577976400545063342950000⟩,
  ⟨204590851970284336170000, 577976400545066049120000, 8844047198909872342700000⟩,
  ⟨278772702703455436960000, 2593390118657856735500000, 469712061300855548970000⟩,
  ⟨278772702703455436960000, 6936897820041287854300000, 2593390118657856735500000⟩,
  ⟨278772702703455436960000, 469712061300855965310000, 6936897820041288964500000⟩,
  ⟨278772702703455436960000, 6936897820041287854300000, 469712061300855548970000⟩,
  ⟨278772702703455436960000, 2593390118657857290600000, 6936897820041288964500000⟩,
  ⟨278772702703455436960000, 469712061300854299970000, 2593390118657858955900000⟩,
  ⟨638626242805669236400000, 2416636063972473491600000, 2416636063972475434400000⟩,
  ⟨638626242805669236400000, 5166727872055051351600000, 2416636063972474046700000⟩,
  ⟨638626242805669236400000, 2416636063972474879300000, 5166727872055052461800000⟩]

/-- `HardcodedQuadRule<kTria, 8>()`; /repo/lib/lf/quad/quad_rules_tria.cc:214-268. -/
def triaTab8 : List TabRow := [
  ⟨516086852673591223170000, 1705693077517601019500000, 1705693077517603517500000⟩,
  ⟨516086852673591223170000, 6588613844964794630200000, 1705693077517601852200000⟩,
  ⟨516086852673591223170000, 1705693077517604350200000, 6588613844964795740500000⟩,
  ⟨475458171336423096600000, 4592925882927231251400000, 814148234145537358360000⟩,
  ⟨475458171336423096600000, 4592925882927231251400000, 4592925882927231806500000⟩,
  ⟨475458171336423096600000, 814148234145536664470000, 4592925882927232916800000⟩,
  ⟨721578038388935860680000, 3333333333333332593200000, 3333333333333334258500000⟩,
  ⟨162292488115990396480000, 505472283170308595010000, 505472283170311578740000⟩,
  ⟨162292488115990396480000, 8989055433659378646600000, 505472283170308733790000⟩,
  ⟨162292488115990396480000, 505472283170312897130000, 8989055433659380867100000⟩,
  ⟨136151570872174963730000, 2631128296346380568400000, 83947774099576780160000⟩,
  ⟨136151570872174963730000, 7284923929554042443300000, 2631128296346380568400000⟩,
  ⟨136151570872174963730000, 83947774099576988327000, 7284923929554044663700000⟩,
  ⟨136151570872174963730000, 7284923929554042443300000, 83947774099576780160000⟩,
  ⟨136151570872174963730000, 2631128296346381123500000, 7284923929554043553500000⟩,
  ⟨136151570872174963730000, 83947774099575322992000, 2631128296346383344000000⟩]

/-- `HardcodedQuadRule<kTria, 9>()`; /repo/lib/lf/quad/quad_rules_tria.cc:272-335. -/
def triaTab9 : List TabRow := [
  ⟨156673501135695392160000, 4896825191987376202400000, 206349616025247838140000⟩,
  ⟨156673501135695392160000, 4896825191987376202400000, 4896825191987377312600000⟩,
  ⟨156673501135695392160000, 206349616025247040160000, 4896825191987378422800000⟩,
  ⟨485678981413994251270000, 3333333333333332593200000, 3333333333333334258500000⟩,
  ⟨398238694636051382410000, 1882035356190326358400000, 1882035356190328856400000⟩,
  ⟨398238694636051382410000, 6235929287619343952500000, 1882035356190327191100000⟩,
  ⟨398238694636051382410000, 1882035356190329134000000, 6235929287619346173000000⟩,
  ⟨216417696886446880860000, 2219629891607657057300000, 368384120547363136390000⟩,
  ⟨216417696886446880860000, 7411985987844980083800000, 2219629891607657334900000⟩,
  ⟨216417696886446880860000, 368384120547363691500000, 7411985987844981194100000⟩,
  ⟨216417696886446880860000, 7411985987844980083800000, 368384120547363136390000⟩,
  ⟨216417696886446880860000, 2219629891607657890000000, 7411985987844981194100000⟩,
  ⟨216417696886446880860000, 368384120547361332280000, 2219629891607659832900000⟩,
  ⟨389137705023871391390000, 4370895914929365799800000, 1258208170141267845400000⟩,
  ⟨389137705023871391390000, 4370895914929365799800000, 4370895914929366910000000⟩,
  ⟨389137705023871391390000, 1258208170141266735200000, 4370895914929368020200000⟩,
  ⟨127888378293490173610000, 447295133944525663550000, 447295133944528786050000⟩,
  ⟨127888378293490173610000, 9105409732110945064700000, 447295133944525316600000⟩,
  ⟨127888378293490173610000, 447295133944530243220000, 9105409732110946174900000⟩]

/-- `HardcodedQuadRule<kTria, 10>()`; /repo/lib/lf/quad/quad_rules_tria.cc:339-420. -/
def triaTab10 : List TabRow := [
  ⟨48962952492091517398000, 4951734598011704457900000, 96530803976590546372000⟩,
  ⟨48962952492091517398000, 4951734598011704457900000, 4951734598011705568200000⟩,
  ⟨48962952492091517398000, 96530803976589696358000, 4951734598011707233500000⟩,
  ⟨31926796150593276039000, 191394152428411012950000, 191394152428414100750000⟩,
  ⟨31926796150593276039000, 9617211695143175198600000, 191394152428410908860000⟩,
  ⟨31926796150593276039000, 191394152428415731390000, 9617211695143175198600000⟩,
  ⟨144811407316281712250000, 1337347551008691293200000, 347236204823274940970000⟩,
  ⟨144811407316281712250000, 8315416244168033488300000, 1337347551008691293200000⟩,
  ⟨144811407316281712250000, 347236204823274663410000, 8315416244168036819000000⟩,
  ⟨144811407316281712250000, 8315416244168033488300000, 347236204823274940970000⟩,
  ⟨144811407316281712250000, 1337347551008691848300000, 8315416244168034598500000⟩,
  ⟨144811407316281712250000, 347236204823272859300000, 1337347551008694346300000⟩,
  ⟨418074371869869634840000, 3333333333333332593200000, 3333333333333334258500000⟩,
  ⟨193695245430094524500000, 3266931362813368933100000, 375827273411917031630000⟩,
  ⟨193695245430094524500000, 6357241363774714937300000, 3266931362813368933100000⟩,
  ⟨193695245430094524500000, 375827273411917239800000, 6357241363774714937300000⟩,
  ⟨193695245430094524500000, 6357241363774713827100000, 375827273411917031630000⟩,
  ⟨193695245430094524500000, 3266931362813368933100000, 6357241363774714937300000⟩,
  ⟨193695245430094524500000, 375827273411915852020000, 3266931362813371708700000⟩,
  ⟨393168848731886427790000, 1844850126852464189400000, 1844850126852466409800000⟩,
  ⟨393168848731886427790000, 6310299746295069400800000, 1844850126852464744500000⟩,
  ⟨393168848731886427790000, 1844850126852466409800000, 6310299746295071621200000⟩,
  ⟨376236639842719988720000, 4282348209437188413200000, 1435303581125623451100000⟩,
  ⟨376236639842719988720000, 4282348209437188413200000, 4282348209437188968400000⟩,
  ⟨376236639842719988720000, 1435303581125622618400000, 4282348209437190078600000⟩]

/-- `HardcodedQuadRule<kTria, 11>()`; /repo/lib/lf/quad/quad_rules_tria.cc:424-514. -/
def triaTab11 : List TabRow := [
  ⟨61246484753539817691000, 308468956355878905220000, 308468956355881993030000⟩,
  ⟨61246484753539817691000, 9383062087288238650700000, 308468956355878801130000⟩,
  ⟨61246484753539817691000, 308468956355882895080000, 9383062087288240871200000⟩,
  ⟨62327459369406913031000, 4987801651784607437400000, 24396696430785042888000⟩,
  ⟨62327459369406913031000, 4987801651784607437400000, 4987801651784607992500000⟩,
  ⟨62327459369406913031000, 24396696430784292620000, 4987801651784609657800000⟩,
  ⟨72788116689046240132000, 1593036198376934775600000, 143666625695556288840000⟩,
  ⟨72788116689046240132000, 8263297175927508675400000, 1593036198376935053100000⟩,
  ⟨72788116689046240132000, 143666625695556549050000, 8263297175927510895800000⟩,
  ⟨72788116689046240132000, 8263297175927508675400000, 143666625695556288840000⟩,
  ⟨72788116689046240132000, 1593036198376934775600000, 8263297175927510895800000⟩,
  ⟨72788116689046240132000, 143666625695553773490000, 1593036198376938106200000⟩,
  ⟨407225673546756442020000, 3333333333333332593200000, 3333333333333334258500000⟩,
  ⟨200646211906541568900000, 1132078272866938739600000, 1132078272866941098800000⟩,
  ⟨200646211906541568900000, 7735843454266120300400000, 1132078272866938600800000⟩,
  ⟨200646211906541568900000, 1132078272866940960000000, 7735843454266122520800000⟩,
  ⟨315474360799493439010000, 4366550163931760542000000, 1266899672136478360900000⟩,
  ⟨315474360799493439010000, 4366550163931760542000000, 4366550163931761097100000⟩,
  ⟨315474360799493439010000, 1266899672136477250600000, 4366550163931762762500000⟩,
  ⟨339225538718475744250000, 2144834586192692627000000, 2144834586192694292400000⟩,
  ⟨339225538718475744250000, 5710330827614612525500000, 2144834586192693459700000⟩,
  ⟨339225538718475744250000, 2144834586192693737200000, 5710330827614614746000000⟩,
  ⟨203214243279432361930000, 3106312163134631321200000, 476640669721508022930000⟩,
  ⟨203214243279432361930000, 6417047167143861141600000, 3106312163134631321200000⟩,
  ⟨203214243279432361930000, 476640669721507537200000, 6417047167143863362100000⟩,
  ⟨203214243279432361930000, 6417047167143860031400000, 476640669721508022930000⟩,
  ⟨203214243279432361930000, 3106312163134631321200000, 6417047167143861141600000⟩,
  ⟨203214243279432361930000, 476640669721506704540000, 3106312163134634096700000⟩]

/-- `HardcodedQuadRule<kTria, 12>()`; /repo/lib/lf/quad/quad_rules_tria.cc:518-623. -/
def triaTab12 : List TabRow := [
  ⟨312706065979513683770000, 2714625070149260244200000, 2714625070149261909500000⟩,
  ⟨312706065979513683770000, 4570749859701477291200000, 2714625070149261354400000⟩,
  ⟨312706065979513683770000, 2714625070149261354400000, 4570749859701478956500000⟩,
  ⟨142430260344387667190000, 1092578276593541980500000, 1092578276593544617200000⟩,
  ⟨142430260344387667190000, 7814843446812912430800000, 1092578276593542396800000⟩,
  ⟨142430260344387667190000, 1092578276593544894800000, 7814843446812914651300000⟩,
  ⟨249591674640304642120000, 4401116486585930909200000, 1197767026828138459100000⟩,
  ⟨249591674640304642120000, 4401116486585930909200000, 4401116486585931464300000⟩,
  ⟨249591674640304642120000, 1197767026828137904000000, 4401116486585932574500000⟩,
  ⟨216136818297070938680000, 2554542286385173000000000, 1162960196779266458500000⟩,
  ⟨216136818297070938680000, 6282497516835561235400000, 2554542286385173555100000⟩,
  ⟨216136818297070938680000, 1162960196779266319700000, 6282497516835562345600000⟩,
  ⟨216136818297070938680000, 6282497516835561235400000, 1162960196779266458500000⟩,
  ⟨216136818297070938680000, 2554542286385173555100000, 6282497516835562345600000⟩,
  ⟨216136818297070938680000, 1162960196779264932000000, 2554542286385175775500000⟩,
  ⟨75418387882557171367000, 1272797172335893567400000, 213824902561706338410000⟩,
  ⟨75418387882557171367000, 8513377925102399990100000, 1272797172335893289800000⟩,
  ⟨75418387882557171367000, 213824902561707275160000, 8513377925102402210600000⟩,
  ⟨75418387882557171367000, 8513377925102399990100000, 213824902561706338410000⟩,
  ⟨75418387882557171367000, 1272797172335893845000000, 8513377925102402210600000⟩,
  ⟨75418387882557171367000, 213824902561703944490000, 1272797172335896620500000⟩,
  ⟨108917925193037726930000, 2916556797383409449500000, 230341563552671768630000⟩,
  ⟨108917925193037726930000, 6853101639063918781900000, 2916556797383410004600000⟩,
  ⟨108917925193037726930000, 230341563552671768630000, 6853101639063921002300000⟩,
  ⟨108917925193037726930000, 6853101639063918781900000, 230341563552671768630000⟩,
  ⟨108917925193037726930000, 2916556797383410004600000, 6853101639063919892100000⟩,
  ⟨108917925193037726930000, 230341563552670380850000, 2916556797383412225100000⟩,
  ⟨121334190407260122950000, 4882037509455415258400000, 235924981089169136240000⟩,
  ⟨121334190407260122950000, 4882037509455414703300000, 4882037509455416368600000⟩,
  ⟨121334190407260122950000, 235924981089168650520000, 4882037509455417478900000⟩,
  ⟨39658212549868177010000, 246463634363354618110000, 246463634363357705910000⟩,
  ⟨39658212549868177010000, 9507072731273287225000000, 246463634363354514020000⟩,
  ⟨39658212549868177010000, 246463634363359163080000, 9507072731273288335200000⟩]

/-- `HardcodedQuadRule<kTria, 13>()`; /repo/lib/lf/quad/quad_rules_tria.cc:627-744. -/
def triaTab13 : List TabRow := [
  ⟨49707381805362930993000, 4961358947410460795700000, 77282105179078816257000⟩,
  ⟨49707381805362930993000, 4961358947410460240600000, 4961358947410461350800000⟩,
  ⟨49707381805362930993000, 77282105179078408597000, 4961358947410462461000000⟩,
  ⟨163906208018614815700000, 4696086896534918953000000, 607826206930162371570000⟩,
  ⟨163906208018614815700000, 4696086896534918397900000, 4696086896534920063200000⟩,
  ⟨163906208018614815700000, 607826206930161538900000, 4696086896534921173400000⟩,
  ⟨230312047963891174120000, 2311102849490822008800000, 2311102849490823674100000⟩,
  ⟨230312047963891174120000, 5377794301018354872200000, 2311102849490822563900000⟩,
  ⟨230312047963891174120000, 2311102849490823119000000, 5377794301018355982400000⟩,
  ⟨90627493231004389168000, 2920786885766363805100000, 189880043837590481440000⟩,
  ⟨90627493231004389168000, 6889333070396045366500000, 2920786885766364360300000⟩,
  ⟨90627493231004389168000, 189880043837590828380000, 6889333070396047586900000⟩,
  ⟨90627493231004389168000, 6889333070396045366500000, 189880043837590481440000⟩,
  ⟨90627493231004389168000, 2920786885766364360300000, 6889333070396046476700000⟩,
  ⟨90627493231004389168000, 189880043837588885490000, 2920786885766367135800000⟩,
  ⟨258113233321454020600000, 3333333333333332593200000, 3333333333333334258500000⟩,
  ⟨186059802286307612860000, 2667452533103511491700000, 977360310660165543250000⟩,
  ⟨186059802286307612860000, 6355187156236323797700000, 2667452533103512046800000⟩,
  ⟨186059802286307612860000, 977360310660164710580000, 6355187156236326018200000⟩,
  ⟨186059802286307612860000, 6355187156236322687500000, 977360310660165543250000⟩,
  ⟨186059802286307612860000, 2667452533103513157000000, 6355187156236322687500000⟩,
  ⟨186059802286307612860000, 977360310660163877920000, 2667452533103514267200000⟩,
  ⟨234735477710775880530000, 4144775702790545191000000, 1710448594418909062900000⟩,
  ⟨234735477710775880530000, 4144775702790545191000000, 4144775702790546301200000⟩,
  ⟨234735477710775880530000, 1710448594418908230300000, 4144775702790546856300000⟩,
  ⟨154515489878798931850000, 1135599125721330759900000, 1135599125721333257900000⟩,
  ⟨154515489878798931850000, 7728801748557335704600000, 1135599125721330759900000⟩,
  ⟨154515489878798931850000, 1135599125721333813000000, 7728801748557336814800000⟩,
  ⟨76965363418910861040000, 1267997757838373040800000, 219663442065292507930000⟩,
  ⟨76965363418910861040000, 8512338800096334035000000, 1267997757838372763200000⟩,
  ⟨76965363418910861040000, 219663442065294312040000, 8512338800096335145200000⟩,
  ⟨76965363418910861040000, 8512338800096334035000000, 219663442065292507930000⟩,
  ⟨76965363418910861040000, 1267997757838373873400000, 8512338800096335145200000⟩,
  ⟨76965363418910861040000, 219663442065290148710000, 1267997757838376649000000⟩,
  ⟨40146998976292097225000, 248959314912162443800000, 248959314912165496910000⟩,
  ⟨40146998976292097225000, 9502081370175671226600000, 248959314912162305020000⟩,
  ⟨40146998976292097225000, 248959314912166607140000, 9502081370175673447100000⟩]

/-- `HardcodedQuadRule<kTria, 14>()`; /repo/lib/lf/quad/quad_rules_tria.cc:748-880. -/
def triaTab14 : List TabRow := [
  ⟨163941767720626845050000, 4176447193404538849000000, 1647105613190922024400000⟩,
  ⟨163941767720626845050000, 4176447193404538849000000, 4176447193404540514400000⟩,
  ⟨163941767720626845050000, 1647105613190920636600000, 4176447193404541069500000⟩,
  ⟨72181540567669236902000, 2983728821362576777400000, 146469500556544764140000⟩,
  ⟨72181540567669236902000, 6869801678080877938000000, 2983728821362577887700000⟩,
  ⟨72181540567669236902000, 146469500556545284550000, 6869801678080880158500000⟩,
  ⟨72181540567669236902000, 6869801678080877938000000, 146469500556544764140000⟩,
  ⟨72181540567669236902000, 2983728821362576777400000, 6869801678080880158500000⟩,
  ⟨72181540567669236902000, 146469500556543064110000, 2983728821362580108100000⟩,
  ⟨72168498348883372909000, 617998830908724830490000, 617998830908727952990000⟩,
  ⟨72168498348883372909000, 8764002338182547147100000, 617998830908724414160000⟩,
  ⟨72168498348883372909000, 617998830908729201990000, 8764002338182548257400000⟩,
  ⟨192857553935303488450000, 3368614597963450196800000, 929162493569718889170000⟩,
  ⟨192857553935303488450000, 5702222908466830775300000, 3368614597963450751900000⟩,
  ⟨192857553935303488450000, 929162493569718472840000, 5702222908466832995700000⟩,
  ⟨192857553935303488450000, 5702222908466830775300000, 929162493569718889170000⟩,
  ⟨192857553935303488450000, 3368614597963450196800000, 5702222908466832995700000⟩,
  ⟨192857553935303488450000, 929162493569717917730000, 3368614597963451862100000⟩,
  ⟨258870522536458064210000, 2734775283088385911000000, 2734775283088387576300000⟩,
  ⟨258870522536458064210000, 4530449433823227067800000, 2734775283088387021200000⟩,
  ⟨258870522536458064210000, 2734775283088387576300000, 4530449433823227622900000⟩,
  ⟨210812943684965219130000, 1772055324125433872800000, 1772055324125435815700000⟩,
  ⟨210812943684965219130000, 6455889351749130034000000, 1772055324125434150300000⟩,
  ⟨210812943684965219130000, 1772055324125436648300000, 6455889351749131144200000⟩,
  ⟨24617018012000422417000, 193909612487008810310000, 193909612487012036900000⟩,
  ⟨24617018012000422417000, 9612180775025979118100000, 193909612487008810310000⟩,
  ⟨24617018012000422417000, 193909612487013771620000, 9612180775025979118100000⟩,
  ⟨109417906847144516540000, 4889639103621786220300000, 220721792756427871720000⟩,
  ⟨109417906847144516540000, 4889639103621786775400000, 4889639103621786220300000⟩,
  ⟨109417906847144516540000, 220721792756427281910000, 4889639103621788440700000⟩,
  ⟨123328766062818454690000, 1722666878213555408100000, 571247574036480090800000⟩,
  ⟨123328766062818454690000, 7706085547749963460300000, 1722666878213555685700000⟩,
  ⟨123328766062818454690000, 571247574036480298960000, 7706085547749966790900000⟩,
  ⟨123328766062818454690000, 7706085547749964570500000, 571247574036480090800000⟩,
  ⟨123328766062818454690000, 1722666878213555685700000, 7706085547749965680700000⟩,
  ⟨123328766062818454690000, 571247574036478356070000, 1722666878213558461200000⟩,
  ⟨25051144192503372633000, 1189744976969568240900000, 12683309328720767002000⟩,
  ⟨25051144192503372633000, 8797571713701710649500000, 1189744976969568379700000⟩,
  ⟨25051144192503372633000, 12683309328722081055000, 8797571713701711759700000⟩,
  ⟨25051144192503372633000, 8797571713701711759700000, 12683309328720767002000⟩,
  ⟨25051144192503372633000, 1189744976969569489900000, 8797571713701711759700000⟩,
  ⟨25051144192503372633000, 12683309328719027942000, 1189744976969571710300000⟩]

/-- `HardcodedQuadRule<kTria, 15>()`; /repo/lib/lf/quad/quad_rules_tria.cc:884-1037. -/
def triaTab15 : List TabRow := [
  ⟨36987520335230493831000, 1299782299330777546300000, 1299782299330780044300000⟩,
  ⟨36987520335230493831000, 7400435401338442131800000, 1299782299330777823900000⟩,
  ⟨36987520335230493831000, 1299782299330779489200000, 7400435401338445462500000⟩,
  ⟨148652098740356588410000, 3333333333333332593200000, 3333333333333334258500000⟩,
  ⟨107970439682192245050000, 4600769492970596674700000, 798461014058806095580000⟩,
  ⟨107970439682192245050000, 4600769492970596674700000, 4600769492970597784900000⟩,
  ⟨107970439682192245050000, 798461014058805262920000, 4600769492970599450200000⟩,
  ⟨121150043915628034120000, 1823217834071912957200000, 845942214821918392340000⟩,
  ⟨121150043915628034120000, 7330839951106168372900000, 1823217834071913234800000⟩,
  ⟨121150043915628034120000, 845942214821919225010000, 7330839951106169483100000⟩,
  ⟨121150043915628034120000, 7330839951106169483100000, 845942214821918392340000⟩,
  ⟨121150043915628034120000, 1823217834071913512300000, 7330839951106170593300000⟩,
  ⟨121150043915628034120000, 845942214821915616780000, 1823217834071915732800000⟩,
  ⟨56142521494390289910000, 1502003840652387234300000, 160270897863454761520000⟩,
  ⟨56142521494390289910000, 8337725261484156824600000, 1502003840652387234300000⟩,
  ⟨56142521494390289910000, 160270897863455941130000, 8337725261484159045000000⟩,
  ⟨56142521494390289910000, 8337725261484157934800000, 160270897863454761520000⟩,
  ⟨56142521494390289910000, 1502003840652388344500000, 8337725261484159045000000⟩,
  ⟨56142521494390289910000, 160270897863452610470000, 1502003840652390565000000⟩,
  ⟨155376102352554733980000, 3231113151637126645900000, 976504424302423873480000⟩,
  ⟨155376102352554733980000, 5792382424060449341900000, 3231113151637127201000000⟩,
  ⟨155376102352554733980000, 976504424302423457150000, 5792382424060451562300000⟩,
  ⟨155376102352554733980000, 5792382424060449341900000, 976504424302423873480000⟩,
  ⟨155376102352554733980000, 3231113151637126645900000, 5792382424060450452100000⟩,
  ⟨155376102352554733980000, 976504424302422624480000, 3231113151637128866300000⟩,
  ⟨79161381750108977817000, 4916858166302972010800000, 166283667394055909020000⟩,
  ⟨79161381750108977817000, 4916858166302972010800000, 4916858166302972565900000⟩,
  ⟨79161381750108977817000, 166283667394055145740000, 4916858166302974786400000⟩,
  ⟨231436430525990381730000, 2215323407951419187900000, 2215323407951421130800000⟩,
  ⟨231436430525990381730000, 5569353184097159958900000, 2215323407951420020500000⟩,
  ⟨231436430525990381730000, 2215323407951420575700000, 5569353184097161069100000⟩,
  ⟨231680206956036138790000, 3969337374090605719000000, 2061325251818789117100000⟩,
  ⟨231680206956036138790000, 3969337374090605719000000, 3969337374090606274100000⟩,
  ⟨231680206956036138790000, 2061325251818787729400000, 3969337374090607384300000⟩,
  ⟨82183810464139459007000, 3079476814836729081600000, 184542519046331753020000⟩,
  ⟨82183810464139459007000, 6735980666116938575500000, 3079476814836729081600000⟩,
  ⟨82183810464139459007000, 184542519046331787710000, 6735980666116941906200000⟩,
  ⟨82183810464139459007000, 6735980666116939685800000, 184542519046331753020000⟩,
  ⟨82183810464139459007000, 3079476814836729081600000, 6735980666116940796000000⟩,
  ⟨82183810464139459007000, 184542519046330677490000, 3079476814836731302100000⟩,
  ⟨75422371237985333034000, 563419176960999884550000, 563419176961002868280000⟩,
  ⟨75422371237985333034000, 8873161646077997177800000, 563419176960999329440000⟩,
  ⟨75422371237985333034000, 563419176961004186670000, 8873161646077998288000000⟩,
  ⟨12376330072789577374000, 380352293011092870700000, 11135352740137421674000⟩,
  ⟨12376330072789577374000, 9608512354248769371500000, 380352293011092940090000⟩,
  ⟨12376330072789577374000, 11135352740138659833000, 9608512354248771592000000⟩,
  ⟨12376330072789577374000, 9608512354248770481700000, 11135352740137421674000⟩,
  ⟨12376330072789577374000, 380352293011093078870000, 9608512354248771592000000⟩,
  ⟨12376330072789577374000, 11135352740134635274000, 380352293011096131980000⟩]

/-- `HardcodedQuadRule<kTria, 16>()`; /repo/lib/lf/quad/quad_rules_tria.cc:1041-1212. -/
def triaTab16 : List TabRow := [
  ⟨40911052766110693815000, 4137694858270851705500000, 96649544036602579034000⟩,
  ⟨40911052766110693815000, 5765655597692547207300000, 4137694858270851705500000⟩,
  ⟨40911052766110693815000, 96649544036602752506000, 5765655597692547207300000⟩,
  ⟨40911052766110693815000, 5765655597692546097100000, 96649544036602579034000⟩,
  ⟨40911052766110693815000, 4137694858270851705500000, 5765655597692547207300000⟩,
  ⟨40911052766110693815000, 96649544036601642283000, 4137694858270853925900000⟩,
  ⟨69918035623267836554000, 3041794482294797319400000, 303059433551863786900000⟩,
  ⟨69918035623267836554000, 6655146084153339414200000, 3041794482294797319400000⟩,
  ⟨69918035623267836554000, 303059433551863821600000, 6655146084153341634600000⟩,
  ⟨69918035623267836554000, 6655146084153339414200000, 303059433551863786900000⟩,
  ⟨69918035623267836554000, 3041794482294797874500000, 6655146084153339414200000⟩,
  ⟨69918035623267836554000, 303059433551862711380000, 3041794482294799539800000⟩,
  ⟨62127127977805052944000, 666744722402381612140000, 666744722402384526470000⟩,
  ⟨62127127977805052944000, 8666510555195233722600000, 666744722402381334580000⟩,
  ⟨62127127977805052944000, 666744722402385359140000, 8666510555195235943100000⟩,
  ⟨28759349852485798990000, 896090890227058400890000, 108129727761037564700000⟩,
  ⟨28759349852485798990000, 8995779382011903635400000, 896090890227058262110000⟩,
  ⟨28759349852485798990000, 108129727761038241240000, 8995779382011905855900000⟩,
  ⟨28759349852485798990000, 8995779382011903635400000, 108129727761037564700000⟩,
  ⟨28759349852485798990000, 896090890227059233550000, 8995779382011905855900000⟩,
  ⟨28759349852485798990000, 108129727761034702400000, 896090890227061870330000⟩,
  ⟨158230308409916253790000, 2966153724003829372800000, 1066531605361484835700000⟩,
  ⟨158230308409916253790000, 5967314670634684681300000, 2966153724003829927900000⟩,
  ⟨158230308409916253790000, 1066531605361484835700000, 5967314670634686901700000⟩,
  ⟨158230308409916253790000, 5967314670634685791500000, 1066531605361484835700000⟩,
  ⟨158230308409916253790000, 2966153724003829927900000, 5967314670634685791500000⟩,
  ⟨158230308409916253790000, 1066531605361482892800000, 2966153724003832148300000⟩,
  ⟨205920205348962756520000, 2413216807013782716500000, 2413216807013784659400000⟩,
  ⟨205920205348962756520000, 5173566385972432346600000, 2413216807013783826700000⟩,
  ⟨205920205348962756520000, 2413216807013784381800000, 5173566385972433456800000⟩,
  ⟨204926098934076865440000, 4127980959552236539500000, 1744038080895526921000000⟩,
  ⟨204926098934076865440000, 4127980959552236539500000, 4127980959552237649700000⟩,
  ⟨204926098934076865440000, 1744038080895526088300000, 4127980959552238204900000⟩,
  ⟨88265405235516437854000, 1697633551502897297800000, 513543153440131280860000⟩,
  ⟨88265405235516437854000, 7788823295056971352000000, 1697633551502897575300000⟩,
  ⟨88265405235516437854000, 513543153440131905360000, 7788823295056972462200000⟩,
  ⟨88265405235516437854000, 7788823295056972462200000, 513543153440131280860000⟩,
  ⟨88265405235516437854000, 1697633551502897852900000, 7788823295056971352000000⟩,
  ⟨88265405235516437854000, 513543153440129823690000, 1697633551502900350900000⟩,
  ⟨143917483513744566550000, 1500637365870349793100000, 1500637365870352846200000⟩,
  ⟨143917483513744566550000, 6998725268259297083200000, 1500637365870350070600000⟩,
  ⟨143917483513744566550000, 1500637365870353123800000, 6998725268259298193400000⟩,
  ⟨23073453198645672672000, 2140487799258472823000000, 36969427073556136894000⟩,
  ⟨23073453198645672672000, 7822542773667970905600000, 2140487799258472823000000⟩,
  ⟨23073453198645672672000, 36969427073555993779000, 7822542773667974236300000⟩,
  ⟨23073453198645672672000, 7822542773667970905600000, 36969427073556136894000⟩,
  ⟨23073453198645672672000, 2140487799258473100600000, 7822542773667972015900000⟩,
  ⟨23073453198645672672000, 36969427073553912111000, 2140487799258475598600000⟩,
  ⟨135468347338552272400000, 4695480309966849619100000, 609039380066300969910000⟩,
  ⟨135468347338552272400000, 4695480309966849619100000, 4695480309966850174200000⟩,
  ⟨135468347338552272400000, 609039380066300206630000, 4695480309966851839600000⟩,
  ⟨231139551570956752750000, 3333333333333332593200000, 3333333333333334258500000⟩,
  ⟨18945676191321112435000, 170416294057182740600000, 170416294057185550850000⟩,
  ⟨18945676191321112435000, 9659167411885630771800000, 170416294057182358960000⟩,
  ⟨18945676191321112435000, 170416294057186834540000, 9659167411885632992300000⟩]

/-- `HardcodedQuadRule<kTria, 17>()`; /repo/lib/lf/quad/quad_rules_tria.cc:1216-1402. -/
def triaTab17 : List TabRow := [
  ⟨136554632640510532210000, 4171034443615991849100000, 1657931112768016856900000⟩,
  ⟨136554632640510532210000, 4171034443615991849100000, 4171034443615992959300000⟩,
  ⟨136554632640510532210000, 1657931112768016024300000, 4171034443615993514400000⟩,
  ⟨22921742008679335187000, 725054707990023805660000, 115751759031806882720000⟩,
  ⟨22921742008679335187000, 9159193532978169294300000, 725054707990023666890000⟩,
  ⟨22921742008679335187000, 115751759031808565400000, 9159193532978170404500000⟩,
  ⟨22921742008679335187000, 9159193532978169294300000, 115751759031806882720000⟩,
  ⟨22921742008679335187000, 725054707990024360780000, 9159193532978170404500000⟩,
  ⟨22921742008679335187000, 115751759031804263290000, 725054707990026858780000⟩,
  ⟨131563152940089925220000, 1803581162663705495000000, 1803581162663707437900000⟩,
  ⟨131563152940089925220000, 6392837674672586789600000, 1803581162663705772500000⟩,
  ⟨131563152940089925220000, 1803581162663708270500000, 6392837674672587899800000⟩,
  ⟨51992199779197683165000, 4154754592952290548300000, 132296727600869565290000⟩,
  ⟨51992199779197683165000, 5712948679446840927200000, 4154754592952290548300000⟩,
  ⟨51992199779197683165000, 132296727600868524450000, 5712948679446843147600000⟩,
  ⟨51992199779197683165000, 5712948679446840927200000, 132296727600869565290000⟩,
  ⟨51992199779197683165000, 4154754592952289993200000, 5712948679446840927200000⟩,
  ⟨51992199779197683165000, 132296727600868246900000, 4154754592952292768800000⟩,
  ⟨43461072505005951885000, 2717918700553547672900000, 131358708340027583590000⟩,
  ⟨43461072505005951885000, 7150722591106424275200000, 2717918700553548783100000⟩,
  ⟨43461072505005951885000, 131358708340028607080000, 7150722591106425385400000⟩,
  ⟨43461072505005951885000, 7150722591106424275200000, 131358708340027583590000⟩,
  ⟨43461072505005951885000, 2717918700553549893300000, 7150722591106424275200000⟩,
  ⟨43461072505005951885000, 131358708340025553960000, 2717918700553551558700000⟩,
  ⟨130858129676684926960000, 2992189424769702843500000, 1575054779268699745000000⟩,
  ⟨130858129676684926960000, 5432755795961596856400000, 2992189424769703398600000⟩,
  ⟨130858129676684926960000, 1575054779268699189900000, 5432755795961599076800000⟩,
  ⟨130858129676684926960000, 5432755795961596856400000, 1575054779268699745000000⟩,
  ⟨130858129676684926960000, 2992189424769702288400000, 5432755795961599076800000⟩,
  ⟨130858129676684926960000, 1575054779268698357300000, 2992189424769705063900000⟩,
  ⟨188581185763976415250000, 2857065024365865735200000, 2857065024365867400600000⟩,
  ⟨188581185763976415250000, 4285869951268266864200000, 2857065024365866845500000⟩,
  ⟨188581185763976415250000, 2857065024365866845500000, 4285869951268268529500000⟩,
  ⟨112438862733455335190000, 3062815917461865211600000, 673493778673612542020000⟩,
  ⟨112438862733455335190000, 6263690303864521968800000, 3062815917461865211600000⟩,
  ⟨112438862733455335190000, 673493778673612819570000, 6263690303864524189200000⟩,
  ⟨112438862733455335190000, 6263690303864521968800000, 673493778673612542020000⟩,
  ⟨112438862733455335190000, 3062815917461865211600000, 6263690303864524189200000⟩,
  ⟨112438862733455335190000, 673493778673611709350000, 3062815917461867432100000⟩,
  ⟨102789491602272575750000, 1687225134952594352000000, 780423405682824783410000⟩,
  ⟨102789491602272575750000, 7532351459364581280900000, 1687225134952594074500000⟩,
  ⟨102789491602272575750000, 780423405682825199750000, 7532351459364583501400000⟩,
  ⟨102789491602272575750000, 7532351459364581280900000, 780423405682824783410000⟩,
  ⟨102789491602272575750000, 1687225134952594074500000, 7532351459364582391100000⟩,
  ⟨102789491602272575750000, 780423405682822701750000, 1687225134952597405100000⟩,
  ⟨62295004011527210785000, 666540634795968062190000, 666540634795970976520000⟩,
  ⟨62295004011527210785000, 8666918730408059712300000, 666540634795968062190000⟩,
  ⟨62295004011527210785000, 666540634795971254080000, 8666918730408061932700000⟩,
  ⟨39891501029647967458000, 1591922874727926817700000, 160176423621193435300000⟩,
  ⟨39891501029647967458000, 8247900701650879851100000, 1591922874727926817700000⟩,
  ⟨39891501029647967458000, 160176423621193886330000, 8247900701650882071500000⟩,
  ⟨39891501029647967458000, 8247900701650879851100000, 160176423621193435300000⟩,
  ⟨39891501029647967458000, 1591922874727927372800000, 8247900701650882071500000⟩,
  ⟨39891501029647967458000, 160176423621191665880000, 1591922874727930148400000⟩,
  ⟨13869437888188210998000, 147554916607538222360000, 147554916607541275480000⟩,
  ⟨13869437888188210998000, 9704890166784919669500000, 147554916607538066240000⟩,
  ⟨13869437888188210998000, 147554916607542385700000, 9704890166784921889900000⟩,
  ⟨125097254752486782700000, 4655978716188902688500000, 688042567622194484180000⟩,
  ⟨125097254752486782700000, 4655978716188902133400000, 4655978716188903798700000⟩,
  ⟨125097254752486782700000, 688042567622193790290000, 4655978716188904909000000⟩]

/-- `HardcodedQuadRule<kTria, 18>()`; /repo/lib/lf/quad/quad_rules_tria.cc:1406-1613. -/
def triaTab18 : List TabRow := [
  ⟨76641290972765622330000, 3850440344131636494200000, 904270403543406542380000⟩,
  ⟨76641290972765622330000, 5245289252324958351200000, 3850440344131637049300000⟩,
  ⟨76641290972765622330000, 904270403543405709710000, 5245289252324959461400000⟩,
  ⟨76641290972765622330000, 5245289252324957241000000, 904270403543406542380000⟩,
  ⟨76641290972765622330000, 3850440344131637049300000, 5245289252324958351200000⟩,
  ⟨76641290972765622330000, 904270403543405432160000, 3850440344131638714700000⟩,
  ⟨65535137458693718676000, 4749182113240457137100000, 501635773519085795270000⟩,
  ⟨65535137458693718676000, 4749182113240457692200000, 4749182113240457692200000⟩,
  ⟨65535137458693718676000, 501635773519084893210000, 4749182113240459357500000⟩,
  ⟨101591694227291893390000, 1516385069726047252200000, 1516385069726050305300000⟩,
  ⟨101591694227291893390000, 6967229860547902164900000, 1516385069726047807300000⟩,
  ⟨101591694227291893390000, 1516385069726050027800000, 6967229860547904385400000⟩,
  ⟨21087583873722194443000, 472761418326517468550000, 124989324834954822900000⟩,
  ⟨21087583873722194443000, 9402249256838527413600000, 472761418326517537940000⟩,
  ⟨21087583873722194443000, 124989324834956505580000, 9402249256838528523900000⟩,
  ⟨21087583873722194443000, 9402249256838527413600000, 124989324834954822900000⟩,
  ⟨21087583873722194443000, 472761418326518301210000, 9402249256838528523900000⟩,
  ⟨21087583873722194443000, 124989324834951925910000, 472761418326520799220000⟩,
  ⟨153742606195579126220000, 3333333333333332593200000, 3333333333333334258500000⟩,
  ⟨81829542069932741793000, 3020619577128707544700000, 540117353390242999070000⟩,
  ⟨81829542069932741793000, 6439263069481050427700000, 3020619577128707544700000⟩,
  ⟨81829542069932741793000, 540117353390242582730000, 6439263069481051537900000⟩,
  ⟨81829542069932741793000, 6439263069481049317500000, 540117353390242999070000⟩,
  ⟨81829542069932741793000, 3020619577128708099800000, 6439263069481049317500000⟩,
  ⟨81829542069932741793000, 540117353390241472510000, 3020619577128710320200000⟩,
  ⟨38649176400031098021000, 2565061597742415155900000, 105050188192419655800000⟩,
  ⟨38649176400031098021000, 7329888214065164442300000, 2565061597742415155900000⟩,
  ⟨38649176400031098021000, 105050188192419846620000, 7329888214065167773000000⟩,
  ⟨38649176400031098021000, 7329888214065165552600000, 105050188192419655800000⟩,
  ⟨38649176400031098021000, 2565061597742415155900000, 7329888214065167773000000⟩,
  ⟨38649176400031098021000, 105050188192417626180000, 2565061597742418486600000⟩,
  ⟨167359970299239303740000, 4110671018759194383900000, 1778657962481610677100000⟩,
  ⟨167359970299239303740000, 4110671018759194383900000, 4110671018759195494100000⟩,
  ⟨167359970299239303740000, 1778657962481609566800000, 4110671018759196604400000⟩,
  ⟨84558269587400296946000, 1784791255658876307800000, 661224580284034413320000⟩,
  ⟨84558269587400296946000, 7553984164057089278900000, 1784791255658876030200000⟩,
  ⟨84558269587400296946000, 661224580284035523550000, 7553984164057090389100000⟩,
  ⟨84558269587400296946000, 7553984164057089278900000, 661224580284034413320000⟩,
  ⟨84558269587400296946000, 1784791255658877418000000, 7553984164057090389100000⟩,
  ⟨84558269587400296946000, 661224580284032331660000, 1784791255658879360900000⟩,
  ⟨155581983010030493880000, 2656146099053741660400000, 2656146099053743325800000⟩,
  ⟨155581983010030493880000, 4687707801892515568900000, 2656146099053742215500000⟩,
  ⟨155581983010030493880000, 2656146099053742770700000, 4687707801892516679100000⟩,
  ⟨2660028084738900403700, 37589443410682042354000, 37589443410685160520000⟩,
  ⟨2660028084738900403700, 9924821113178632359100000, 37589443410681955618000⟩,
  ⟨2660028084738900403700, 37589443410686596003000, 9924821113178633469300000⟩,
  ⟨137964432442897241140000, 2685733063960137889700000, 1490669101257739159700000⟩,
  ⟨137964432442897241140000, 5823597834782122673000000, 2685733063960138444800000⟩,
  ⟨137964432442897241140000, 1490669101257738882200000, 5823597834782124893500000⟩,
  ⟨137964432442897241140000, 5823597834782122673000000, 1490669101257739159700000⟩,
  ⟨137964432442897241140000, 2685733063960137889700000, 5823597834782124893500000⟩,
  ⟨137964432442897241140000, 1490669101257737494400000, 2685733063960140110100000⟩,
  ⟨47930622371807471080000, 4110656686746183563500000, 116918246746671606470000⟩,
  ⟨47930622371807471080000, 5772425066507145263700000, 4110656686746183563500000⟩,
  ⟨47930622371807471080000, 116918246746671172790000, 5772425066507147484200000⟩,
  ⟨47930622371807471080000, 5772425066507145263700000, 116918246746671606470000⟩,
  ⟨47930622371807471080000, 4110656686746184673700000, 5772425066507145263700000⟩,
  ⟨47930622371807471080000, 116918246746670617680000, 4110656686746185783900000⟩,
  ⟨38208524863598139834000, 1327788302713892865100000, 143315247789419925040000⟩,
  ⟨38208524863598139834000, 8528896449496686793500000, 1327788302713892587500000⟩,
  ⟨38208524863598139834000, 143315247789422284260000, 8528896449496686793500000⟩,
  ⟨38208524863598139834000, 8528896449496687903700000, 143315247789419925040000⟩,
  ⟨38208524863598139834000, 1327788302713892587500000, 8528896449496690124200000⟩,
  ⟨38208524863598139834000, 143315247789417149480000, 1327788302713896195800000⟩,
  ⟨68951433023834631658000, 724387055673327562300000, 724387055673330476640000⟩,
  ⟨68951433023834631658000, 8551225888653340989600000, 724387055673327284740000⟩,
  ⟨68951433023834631658000, 724387055673331725640000, 8551225888653343210100000⟩]

/-- `HardcodedQuadRule<kTria, 19>()`; /repo/lib/lf/quad/quad_rules_tria.cc:1617-1842. -/
def triaTab19 : List TabRow := [
  ⟨14628462439400353404000, 1424222825711269069200000, 50051423523504350380000⟩,
  ⟨14628462439400353404000, 8525725750765226207400000, 1424222825711269346800000⟩,
  ⟨14628462439400353404000, 50051423523504445789000, 8525725750765228427900000⟩,
  ⟨14628462439400353404000, 8525725750765226207400000, 50051423523504350380000⟩,
  ⟨14628462439400353404000, 1424222825711269346800000, 8525725750765228427900000⟩,
  ⟨14628462439400353404000, 50051423523501947788000, 1424222825711272677500000⟩,
  ⟨35546968113974726326000, 525262798541034220400000, 525262798541037134740000⟩,
  ⟨35546968113974726326000, 8949474402917928506100000, 525262798541034220400000⟩,
  ⟨35546968113974726326000, 525262798541038522520000, 8949474402917929616300000⟩,
  ⟨16636944202969520396000, 600838999627023515050000, 97770614386768570775000⟩,
  ⟨16636944202969520396000, 9301390385986207931500000, 600838999627023376270000⟩,
  ⟨16636944202969520396000, 97770614386770704485000, 9301390385986207931500000⟩,
  ⟨16636944202969520396000, 9301390385986207931500000, 97770614386768570775000⟩,
  ⟨16636944202969520396000, 600838999627024694660000, 9301390385986207931500000⟩,
  ⟨16636944202969520396000, 97770614386766679926000, 600838999627027192660000⟩,
  ⟨48477595408120991924000, 1307006699605345323400000, 391424494346088655550000⟩,
  ⟨48477595408120991924000, 8301568806048564841400000, 1307006699605345601000000⟩,
  ⟨48477595408120991924000, 391424494346089835160000, 8301568806048567061900000⟩,
  ⟨48477595408120991924000, 8301568806048565951600000, 391424494346088655550000⟩,
  ⟨48477595408120991924000, 1307006699605346433700000, 8301568806048567061900000⟩,
  ⟨48477595408120991924000, 391424494346086643270000, 1307006699605348376500000⟩,
  ⟨131731323537226784750000, 3113183832239868609200000, 1293128097679790422500000⟩,
  ⟨131731323537226784750000, 5593688070080341523400000, 3113183832239869164300000⟩,
  ⟨131731323537226784750000, 1293128097679790422500000, 5593688070080342633600000⟩,
  ⟨131731323537226784750000, 5593688070080341523400000, 1293128097679790422500000⟩,
  ⟨131731323537226784750000, 3113183832239868609200000, 5593688070080342633600000⟩,
  ⟨131731323537226784750000, 1293128097679789034700000, 3113183832239870274500000⟩,
  ⟨76174782585024160969000, 1114480557169985480700000, 1114480557169988117500000⟩,
  ⟨76174782585024160969000, 7771038885660025430400000, 1114480557169985480700000⟩,
  ⟨76174782585024160969000, 1114480557169988395000000, 7771038885660027650800000⟩,
  ⟨8825962091542697814500, 116390273279224441130000, 116390273279227511590000⟩,
  ⟨8825962091542697814500, 9767219453441547960500000, 116390273279224302360000⟩,
  ⟨8825962091542697814500, 116390273279229350400000, 9767219453441547960500000⟩,
  ⟨158764272937649865420000, 2551621331531247483000000, 2551621331531249148300000⟩,
  ⟨158764272937649865420000, 4896757336937502813600000, 2551621331531248593200000⟩,
  ⟨158764272937649865420000, 2551621331531248593200000, 4896757336937504478900000⟩,
  ⟨90540372952152489705000, 2214339418891134170200000, 745611893043551660080000⟩,
  ⟨90540372952152489705000, 7040048688065314586000000, 2214339418891134447800000⟩,
  ⟨90540372952152489705000, 745611893043551798850000, 7040048688065316806500000⟩,
  ⟨90540372952152489705000, 7040048688065313475800000, 745611893043551660080000⟩,
  ⟨90540372952152489705000, 2214339418891133615100000, 7040048688065316806500000⟩,
  ⟨90540372952152489705000, 745611893043549578410000, 2214339418891136945800000⟩,
  ⟨157686793226198031240000, 4039697179663860326900000, 1920605640672278791000000⟩,
  ⟨157686793226198031240000, 4039697179663860326900000, 4039697179663861437100000⟩,
  ⟨157686793226198031240000, 1920605640672277958400000, 4039697179663861992300000⟩,
  ⟨80511047304697123950000, 3540259269997119151400000, 408883144649781413160000⟩,
  ⟨80511047304697123950000, 6050857585353099921100000, 3540259269997119151400000⟩,
  ⟨80511047304697123950000, 408883144649780927440000, 6050857585353102141600000⟩,
  ⟨80511047304697123950000, 6050857585353099921100000, 408883144649781413160000⟩,
  ⟨80511047304697123950000, 3540259269997118596300000, 6050857585353101031300000⟩,
  ⟨80511047304697123950000, 408883144649780372330000, 3540259269997121371900000⟩,
  ⟨123259905267924119860000, 1781710060796274086600000, 1781710060796276029500000⟩,
  ⟨123259905267924119860000, 6436579878407451271700000, 1781710060796274364100000⟩,
  ⟨123259905267924119860000, 1781710060796276029500000, 6436579878407452381900000⟩,
  ⟨114917854885616226020000, 4591943889568276260200000, 816112220863447895840000⟩,
  ⟨114917854885616226020000, 4591943889568276260200000, 4591943889568276815400000⟩,
  ⟨114917854885616226020000, 816112220863447201950000, 4591943889568277925600000⟩,
  ⟨172345804254526308030000, 3333333333333332593200000, 3333333333333334258500000⟩,
  ⟨51609410912094293850000, 4925124498658742244700000, 149751002682515996220000⟩,
  ⟨51609410912094293850000, 4925124498658742244700000, 4925124498658742799900000⟩,
  ⟨51609410912094293850000, 149751002682515510500000, 4925124498658743910100000⟩,
  ⟨42279624195467385359000, 2418941040068926240400000, 149236389074384866870000⟩,
  ⟨42279624195467385359000, 7431822570856688736600000, 2418941040068926240400000⟩,
  ⟨42279624195467385359000, 149236389074384745430000, 7431822570856692067300000⟩,
  ⟨42279624195467385359000, 7431822570856688736600000, 149236389074384866870000⟩,
  ⟨42279624195467385359000, 2418941040068927073000000, 7431822570856689846900000⟩,
  ⟨42279624195467385359000, 149236389074383218880000, 2418941040068929015900000⟩,
  ⟨16410687574198684451000, 3646204143387100082800000, 20691038491023887487000⟩,
  ⟨16410687574198684451000, 6333104818121875201300000, 3646204143387100638000000⟩,
  ⟨16410687574198684451000, 20691038491024160706000, 6333104818121877421800000⟩,
  ⟨16410687574198684451000, 6333104818121876311600000, 20691038491023887487000⟩,
  ⟨16410687574198684451000, 3646204143387100638000000, 6333104818121877421800000⟩,
  ⟨16410687574198684451000, 20691038491022495371000, 3646204143387102858400000⟩]

/-- `HardcodedQuadRule<kTria, 20>()`; /repo/lib/lf/quad/quad_rules_tria.cc:1846-2089. -/
def triaTab20 : List TabRow := [
  ⟨91734629742529130020000, 1862949977445408911200000, 1862949977445410854000000⟩,
  ⟨91734629742529130020000, 6274100045109179957200000, 1862949977445409188700000⟩,
  ⟨91734629742529130020000, 1862949977445411131600000, 6274100045109182177700000⟩,
  ⟨21612754106655773269000, 373108805988845854130000, 373108805988848976630000⟩,
  ⟨21612754106655773269000, 9253782388022304683500000, 373108805988845784740000⟩,
  ⟨21612754106655773269000, 373108805988850433800000, 9253782388022305793700000⟩,
  ⟨71018253034084407108000, 4762456115404989920300000, 475087769190020159370000⟩,
  ⟨71018253034084407108000, 4762456115404989920300000, 4762456115404990475400000⟩,
  ⟨71018253034084407108000, 475087769190019049150000, 4762456115404992695900000⟩,
  ⟨11298696021258653691000, 640905856084340308510000, 48549376076238298650000⟩,
  ⟨11298696021258653691000, 9310544767839421531600000, 640905856084340169730000⟩,
  ⟨11298696021258653691000, 48549376076239547650000, 9310544767839422641800000⟩,
  ⟨11298696021258653691000, 9310544767839421531600000, 48549376076238298650000⟩,
  ⟨11298696021258653691000, 640905856084341141180000, 9310544767839422641800000⟩,
  ⟨11298696021258653691000, 48549376076235384314000, 640905856084343361620000⟩,
  ⟨77226078220992300932000, 2156070573900943643200000, 1062272047202700991900000⟩,
  ⟨77226078220992300932000, 6781657378896355226100000, 2156070573900944475900000⟩,
  ⟨77226078220992300932000, 1062272047202700853100000, 6781657378896357446500000⟩,
  ⟨77226078220992300932000, 6781657378896355226100000, 1062272047202700991900000⟩,
  ⟨77226078220992300932000, 2156070573900943365700000, 6781657378896357446500000⟩,
  ⟨77226078220992300932000, 1062272047202699326600000, 2156070573900946418800000⟩,
  ⟨94523999332324481343000, 4455510569559247846500000, 1088978860881504168200000⟩,
  ⟨94523999332324481343000, 4455510569559247846500000, 4455510569559248956800000⟩,
  ⟨94523999332324481343000, 1088978860881503196700000, 4455510569559250067000000⟩,
  ⟨22028974185584974249000, 1591337076570672193200000, 75707805046965814463000⟩,
  ⟨22028974185584974249000, 8332955118382362469400000, 1591337076570672193200000⟩,
  ⟨22028974185584974249000, 75707805046965614970000, 8332955118382364689800000⟩,
  ⟨22028974185584974249000, 8332955118382362469400000, 75707805046965814463000⟩,
  ⟨22028974185584974249000, 1591337076570672470800000, 8332955118382363579600000⟩,
  ⟨22028974185584974249000, 75707805046963533302000, 1591337076570675523900000⟩,
  ⟨116917457318277354800000, 3178601238357719460700000, 1398080719917999814600000⟩,
  ⟨116917457318277354800000, 5423318041724279892100000, 3178601238357720570900000⟩,
  ⟨116917457318277354800000, 1398080719917999537000000, 5423318041724282112500000⟩,
  ⟨116917457318277354800000, 5423318041724279892100000, 1398080719917999814600000⟩,
  ⟨116917457318277354800000, 3178601238357719460700000, 5423318041724282112500000⟩,
  ⟨116917457318277354800000, 1398080719917998704400000, 3178601238357721681100000⟩,
  ⟨140832013075202471670000, 2545792676733390491600000, 2545792676733392156900000⟩,
  ⟨140832013075202471670000, 4908414646533216796300000, 2545792676733391601800000⟩,
  ⟨140832013075202471670000, 2545792676733391601800000, 4908414646533218461700000⟩,
  ⟨139101107014531141790000, 3333333333333332593200000, 3333333333333334258500000⟩,
  ⟨59863985789546901584000, 1985181322287881688900000, 465603649076643533180000⟩,
  ⟨59863985789546901584000, 7549215028635475333000000, 1985181322287881688900000⟩,
  ⟨59863985789546901584000, 465603649076644088290000, 7549215028635476443200000⟩,
  ⟨59863985789546901584000, 7549215028635474222800000, 465603649076643533180000⟩,
  ⟨59863985789546901584000, 1985181322287882244000000, 7549215028635476443200000⟩,
  ⟨59863985789546901584000, 465603649076641729070000, 1985181322287884742000000⟩,
  ⟨137880506290704567960000, 3934253478170998130600000, 2131493043658003461200000⟩,
  ⟨137880506290704567960000, 3934253478170998130600000, 3934253478170999796000000⟩,
  ⟨137880506290704567960000, 2131493043658002073400000, 3934253478171000351100000⟩,
  ⟨41457115276138578261000, 999522962881386201060000, 383636847753746762500000⟩,
  ⟨41457115276138578261000, 8616840189364867175200000, 999522962881385784730000⟩,
  ⟨41457115276138578261000, 383636847753748289060000, 8616840189364868285400000⟩,
  ⟨41457115276138578261000, 8616840189364866065000000, 383636847753746762500000⟩,
  ⟨41457115276138578261000, 999522962881386756170000, 8616840189364868285400000⟩,
  ⟨41457115276138578261000, 383636847753743917560000, 999522962881389392950000⟩,
  ⟨36956815002552978293000, 4200237588162240576200000, 98315482928025919179000⟩,
  ⟨36956815002552978293000, 5701446928909733591300000, 4200237588162241131300000⟩,
  ⟨36956815002552978293000, 98315482928025277332000, 5701446928909735811800000⟩,
  ⟨36956815002552978293000, 5701446928909733591300000, 98315482928025919179000⟩,
  ⟨36956815002552978293000, 4200237588162241131300000, 5701446928909734701600000⟩,
  ⟨36956815002552978293000, 98315482928024722220000, 4200237588162243351800000⟩,
  ⟨86672255672193328907000, 3331348173095874387600000, 549874791429868711720000⟩,
  ⟨86672255672193328907000, 6118777035474256553700000, 3331348173095874942700000⟩,
  ⟨86672255672193328907000, 549874791429868503560000, 6118777035474258774200000⟩,
  ⟨86672255672193328907000, 6118777035474256553700000, 549874791429868711720000⟩,
  ⟨86672255672193328907000, 3331348173095874387600000, 6118777035474257663900000⟩,
  ⟨86672255672193328907000, 549874791429867393330000, 3331348173095877163200000⟩,
  ⟨35782002384576851520000, 2805814114236652168100000, 107372128560111156080000⟩,
  ⟨35782002384576851520000, 7086813757203236363600000, 2805814114236652723200000⟩,
  ⟨35782002384576851520000, 107372128560111468330000, 7086813757203238584000000⟩,
  ⟨35782002384576851520000, 7086813757203237473800000, 107372128560111156080000⟩,
  ⟨35782002384576851520000, 2805814114236652723200000, 7086813757203237473800000⟩,
  ⟨35782002384576851520000, 107372128560109525440000, 2805814114236654943600000⟩,
  ⟨7988407910666198586500, 109761410283976314910000, 109761410283979073120000⟩,
  ⟨7988407910666198586500, 9780477179432044421100000, 109761410283975863880000⟩,
  ⟨7988407910666198586500, 109761410283981120100000, 9780477179432046641600000⟩,
  ⟨78302307760745332860000, 1093835967117144647400000, 1093835967117147561800000⟩,
  ⟨78302307760745332860000, 7812328065765707929600000, 1093835967117144925000000⟩,
  ⟨78302307760745332860000, 1093835967117147700600000, 7812328065765709039800000⟩]

/-- `HardcodedQuadRule<kTria, 21>()`; /repo/lib/lf/quad/quad_rules_tria.cc:2093-2360. -/
def triaTab21 : List TabRow := [
  ⟨107255609645661737630000, 2989362353149824791400000, 2989362353149826456700000⟩,
  ⟨107255609645661737630000, 4021275293700348196800000, 2989362353149826456700000⟩,
  ⟨107255609645661737630000, 2989362353149825346500000, 4021275293700349307000000⟩,
  ⟨87477080778815656525000, 2891894960785946766500000, 2052955593351616092600000⟩,
  ⟨87477080778815656525000, 5055149445862436863300000, 2891894960785947876800000⟩,
  ⟨87477080778815656525000, 2052955593351615815000000, 5055149445862437973500000⟩,
  ⟨87477080778815656525000, 5055149445862436863300000, 2052955593351616092600000⟩,
  ⟨87477080778815656525000, 2891894960785947321600000, 5055149445862437973500000⟩,
  ⟨87477080778815656525000, 2052955593351614704800000, 2891894960785948987000000⟩,
  ⟨22189148485329403086000, 4970078754686855782000000, 59842490626288531372000⟩,
  ⟨22189148485329403086000, 4970078754686855782000000, 4970078754686856337100000⟩,
  ⟨22189148485329403086000, 59842490626288435962000, 4970078754686857447400000⟩,
  ⟨21030601440748652314000, 2378733825979939819900000, 69318090314681186231000⟩,
  ⟨21030601440748652314000, 7551948083705378733700000, 2378733825979940097500000⟩,
  ⟨21030601440748652314000, 69318090314682834219000, 7551948083705378733700000⟩,
  ⟨21030601440748652314000, 7551948083705378733700000, 69318090314681186231000⟩,
  ⟨21030601440748652314000, 2378733825979941207700000, 7551948083705378733700000⟩,
  ⟨21030601440748652314000, 69318090314680058661000, 2378733825979942873000000⟩,
  ⟨115003523266419358660000, 4036175865463850764800000, 1927648269072298470300000⟩,
  ⟨115003523266419358660000, 4036175865463851320000000, 4036175865463851875100000⟩,
  ⟨115003523266419358660000, 1927648269072297360100000, 4036175865463852430200000⟩,
  ⟨92237424239664210501000, 3188653107948282161600000, 1237794004054928176400000⟩,
  ⟨92237424239664210501000, 5573552887996789939600000, 3188653107948282716700000⟩,
  ⟨92237424239664210501000, 1237794004054927898800000, 5573552887996791049800000⟩,
  ⟨92237424239664210501000, 5573552887996789939600000, 1237794004054928176400000⟩,
  ⟨92237424239664210501000, 3188653107948282716700000, 5573552887996791049800000⟩,
  ⟨92237424239664210501000, 1237794004054926233500000, 3188653107948284937100000⟩,
  ⟨52349520926624230552000, 2318736253704009597800000, 389913626232203450180000⟩,
  ⟨52349520926624230552000, 7291350120063786466300000, 2318736253704009875300000⟩,
  ⟨52349520926624230552000, 389913626232203935910000, 7291350120063788686800000⟩,
  ⟨52349520926624230552000, 7291350120063787576500000, 389913626232203450180000⟩,
  ⟨52349520926624230552000, 2318736253704010152900000, 7291350120063788686800000⟩,
  ⟨52349520926624230552000, 389913626232202131790000, 2318736253704012650900000⟩,
  ⟨22404065609507384585000, 1331671229413702861600000, 95362475297106029382000⟩,
  ⟨22404065609507384585000, 8572966295289190519200000, 1331671229413702584000000⟩,
  ⟨22404065609507384585000, 95362475297107174299000, 8572966295289192739700000⟩,
  ⟨22404065609507384585000, 8572966295289191629400000, 95362475297106029382000⟩,
  ⟨22404065609507384585000, 1331671229413703416700000, 8572966295289192739700000⟩,
  ⟨22404065609507384585000, 95362475297103566074000, 1331671229413706192300000⟩,
  ⟨72501529594855129018000, 3468079798099110155900000, 530521917012168400810000⟩,
  ⟨72501529594855129018000, 6001398284888721512700000, 3468079798099111266100000⟩,
  ⟨72501529594855129018000, 530521917012168331420000, 6001398284888722622900000⟩,
  ⟨72501529594855129018000, 6001398284888721512700000, 530521917012168400810000⟩,
  ⟨72501529594855129018000, 3468079798099110711000000, 6001398284888721512700000⟩,
  ⟨72501529594855129018000, 530521917012167221190000, 3468079798099112931500000⟩,
  ⟨68280162261151015890000, 1189885776227192909500000, 1189885776227195546300000⟩,
  ⟨68280162261151015890000, 7620228447545611683000000, 1189885776227193048300000⟩,
  ⟨68280162261151015890000, 1189885776227195823800000, 7620228447545612793200000⟩,
  ⟨97276209303753594093000, 1902887180912784248500000, 1902887180912786191400000⟩,
  ⟨97276209303753594093000, 6194225638174429837700000, 1902887180912784803600000⟩,
  ⟨97276209303753594093000, 1902887180912785636300000, 6194225638174430947900000⟩,
  ⟨79520183527139881585000, 2165996231899824930900000, 1004580200741145013000000⟩,
  ⟨79520183527139881585000, 6829423567359029778600000, 2165996231899825208400000⟩,
  ⟨79520183527139881585000, 1004580200741145845600000, 6829423567359030888800000⟩,
  ⟨79520183527139881585000, 6829423567359029778600000, 1004580200741145013000000⟩,
  ⟨79520183527139881585000, 2165996231899824930900000, 6829423567359031999000000⟩,
  ⟨79520183527139881585000, 1004580200741142792500000, 2165996231899827706400000⟩,
  ⟨61072050816921939070000, 4815978686532165764500000, 368042626935668332200000⟩,
  ⟨61072050816921939070000, 4815978686532165764500000, 4815978686532166319600000⟩,
  ⟨61072050816921939070000, 368042626935667638310000, 4815978686532167985000000⟩,
  ⟨98072376139120131383000, 4498127917753623750100000, 1003744164492752777300000⟩,
  ⟨98072376139120131383000, 4498127917753623750100000, 4498127917753624860400000⟩,
  ⟨98072376139120131383000, 1003744164492752222200000, 4498127917753625415500000⟩,
  ⟨49059859112752070634000, 1288298079620515401700000, 494510655685405711710000⟩,
  ⟨49059859112752070634000, 8217191264694078123300000, 1288298079620515124200000⟩,
  ⟨49059859112752070634000, 494510655685407307660000, 8217191264694079233500000⟩,
  ⟨49059859112752070634000, 8217191264694079233500000, 494510655685405711710000⟩,
  ⟨49059859112752070634000, 1288298079620516789500000, 8217191264694079233500000⟩,
  ⟨49059859112752070634000, 494510655685403144320000, 1288298079620518454800000⟩,
  ⟨35760425506418274701000, 536275755461448552790000, 536275755461451258950000⟩,
  ⟨35760425506418274701000, 8927448489077099980100000, 536275755461448414010000⟩,
  ⟨35760425506418274701000, 536275755461452785510000, 8927448489077101090300000⟩,
  ⟨34199424289671539329000, 3609534080189221727500000, 102546358729245206540000⟩,
  ⟨34199424289671539329000, 6287919561081534158800000, 3609534080189221727500000⟩,
  ⟨34199424289671539329000, 102546358729244668770000, 6287919561081535269100000⟩,
  ⟨34199424289671539329000, 6287919561081533048600000, 102546358729245206540000⟩,
  ⟨34199424289671539329000, 3609534080189221727500000, 6287919561081534158800000⟩,
  ⟨34199424289671539329000, 102546358729244113660000, 3609534080189223948000000⟩,
  ⟨7543496361893448813900, 107424564328282810820000, 107424564328285707810000⟩,
  ⟨7543496361893448813900, 9785150871343430978300000, 107424564328282515920000⟩,
  ⟨7543496361893448813900, 107424564328286731300000, 9785150871343433198700000⟩,
  ⟨16327142920220430022000, 557195650723719473900000, 103019036434239090460000⟩,
  ⟨16327142920220430022000, 9339785312842041609100000, 557195650723719057560000⟩,
  ⟨16327142920220430022000, 103019036434239819040000, 9339785312842043829600000⟩,
  ⟨16327142920220430022000, 9339785312842040498900000, 103019036434239090460000⟩,
  ⟨16327142920220430022000, 557195650723719682060000, 9339785312842043829600000⟩,
  ⟨16327142920220430022000, 103019036434236002650000, 557195650723722873950000⟩]

/-- `HardcodedQuadRule<kTria, 22>()`; /repo/lib/lf/quad/quad_rules_tria.cc:2364-2658. -/
def triaTab22 : List TabRow := [
  ⟨67465419418053316353000, 3851845246273021272600000, 2296309507453958009800000⟩,
  ⟨67465419418053316353000, 3851845246273021272600000, 3851845246273021827800000⟩,
  ⟨67465419418053316353000, 2296309507453956899600000, 3851845246273022382900000⟩,
  ⟨69306997621170970958000, 4577694113676720744100000, 844611772646558928160000⟩,
  ⟨69306997621170970958000, 4577694113676720744100000, 4577694113676721299200000⟩,
  ⟨69306997621170970958000, 844611772646558511820000, 4577694113676722409400000⟩,
  ⟨12977192371156388850000, 698421694674436210890000, 78762822215823775213000⟩,
  ⟨12977192371156388850000, 9222815483109739753700000, 698421694674436072110000⟩,
  ⟨12977192371156388850000, 78762822215824312977000, 9222815483109743084400000⟩,
  ⟨12977192371156388850000, 9222815483109739753700000, 78762822215823775213000⟩,
  ⟨12977192371156388850000, 698421694674435933340000, 9222815483109743084400000⟩,
  ⟨12977192371156388850000, 78762822215820982308000, 698421694674439264010000⟩,
  ⟨105378819787260921690000, 2945582590299500314000000, 2945582590299501979400000⟩,
  ⟨105378819787260921690000, 4108834819400997151500000, 2945582590299501979400000⟩,
  ⟨105378819787260921690000, 2945582590299500869200000, 4108834819400998261700000⟩,
  ⟨80106495625744469913000, 1885105236302838382900000, 1885105236302840325800000⟩,
  ⟨80106495625744469913000, 6229789527394320458600000, 1885105236302838660500000⟩,
  ⟨80106495625744469913000, 1885105236302840880900000, 6229789527394322679000000⟩,
  ⟨94265462769206435911000, 4219818887935349316400000, 1560362224129301644800000⟩,
  ⟨94265462769206435911000, 4219818887935348761300000, 4219818887935350426600000⟩,
  ⟨94265462769206435911000, 1560362224129300534600000, 4219818887935350981700000⟩,
  ⟨37587889088941885303000, 903988311664077337500000, 447522843483358911950000⟩,
  ⟨37587889088941885303000, 8648488844852564305700000, 903988311664077753840000⟩,
  ⟨37587889088941885303000, 447522843483360022180000, 8648488844852564305700000⟩,
  ⟨37587889088941885303000, 8648488844852564305700000, 447522843483358911950000⟩,
  ⟨37587889088941885303000, 903988311664079002840000, 8648488844852564305700000⟩,
  ⟨37587889088941885303000, 447522843483356969060000, 903988311664080668170000⟩,
  ⟨55986567359813856765000, 4113417640205587200200000, 382752347008638374450000⟩,
  ⟨55986567359813856765000, 5503830012785774217200000, 4113417640205587755300000⟩,
  ⟨55986567359813856765000, 382752347008638027500000, 5503830012785776437700000⟩,
  ⟨55986567359813856765000, 5503830012785774217200000, 382752347008638374450000⟩,
  ⟨55986567359813856765000, 4113417640205587755300000, 5503830012785775327400000⟩,
  ⟨55986567359813856765000, 382752347008636917280000, 4113417640205589975700000⟩,
  ⟨88595467447551094070000, 3321061050074463616400000, 1027470759869314326200000⟩,
  ⟨88595467447551094070000, 5651468190056221363400000, 3321061050074464171500000⟩,
  ⟨88595467447551094070000, 1027470759869314465000000, 5651468190056223583900000⟩,
  ⟨88595467447551094070000, 5651468190056222473700000, 1027470759869314326200000⟩,
  ⟨88595467447551094070000, 3321061050074463061300000, 5651468190056223583900000⟩,
  ⟨88595467447551094070000, 1027470759869312799700000, 3321061050074466392000000⟩,
  ⟨24521301987784826712000, 3625762804324672572400000, 74002412347107544149000⟩,
  ⟨24521301987784826712000, 6300234783328220178300000, 3625762804324673127500000⟩,
  ⟨24521301987784826712000, 74002412347107804358000, 6300234783328221288600000⟩,
  ⟨24521301987784826712000, 6300234783328220178300000, 74002412347107544149000⟩,
  ⟨24521301987784826712000, 3625762804324673127500000, 6300234783328221288600000⟩,
  ⟨24521301987784826712000, 74002412347106694135000, 3625762804324674792900000⟩,
  ⟨108532097777544796900000, 2900668241166687866300000, 1910812979667201594300000⟩,
  ⟨108532097777544796900000, 5188518779166110261900000, 2900668241166688421400000⟩,
  ⟨108532097777544796900000, 1910812979667201316800000, 5188518779166111372100000⟩,
  ⟨108532097777544796900000, 5188518779166110261900000, 1910812979667201594300000⟩,
  ⟨108532097777544796900000, 2900668241166688421400000, 5188518779166111372100000⟩,
  ⟨108532097777544796900000, 1910812979667200206500000, 2900668241166689531600000⟩,
  ⟨26446698329922095974000, 4961611784097086363900000, 76776431805827757837000⟩,
  ⟨26446698329922095974000, 4961611784097086363900000, 4961611784097086919100000⟩,
  ⟨26446698329922095974000, 76776431805827272115000, 4961611784097088584400000⟩,
  ⟨58311114336715014206000, 2879318028241718008300000, 439916453934558610020000⟩,
  ⟨58311114336715014206000, 6680765517823723520500000, 2879318028241718563400000⟩,
  ⟨58311114336715014206000, 439916453934559026350000, 6680765517823724630700000⟩,
  ⟨58311114336715014206000, 6680765517823722410300000, 439916453934558610020000⟩,
  ⟨58311114336715014206000, 2879318028241718008300000, 6680765517823724630700000⟩,
  ⟨58311114336715014206000, 439916453934556805900000, 2879318028241720783800000⟩,
  ⟨78550813112851589765000, 2167869333649411478500000, 1086899418626720292800000⟩,
  ⟨78550813112851589765000, 6745231247723867396000000, 2167869333649411756100000⟩,
  ⟨78550813112851589765000, 1086899418626720570400000, 6745231247723869616500000⟩,
  ⟨78550813112851589765000, 6745231247723867396000000, 1086899418626720292800000⟩,
  ⟨78550813112851589765000, 2167869333649412033600000, 6745231247723869616500000⟩,
  ⟨78550813112851589765000, 1086899418626718349900000, 2167869333649413699000000⟩,
  ⟨20533435357877778682000, 1458737198735251816600000, 91447113749640578789000⟩,
  ⟨20533435357877778682000, 8449815687515107587300000, 1458737198735251816600000⟩,
  ⟨20533435357877778682000, 91447113749641428804000, 8449815687515108697500000⟩,
  ⟨20533435357877778682000, 8449815687515107587300000, 91447113749640578789000⟩,
  ⟨20533435357877778682000, 1458737198735252094100000, 8449815687515108697500000⟩,
  ⟨20533435357877778682000, 91447113749637959357000, 1458737198735255147200000⟩,
  ⟨52817924838734495521000, 1762974348245000544300000, 482549241146414051310000⟩,
  ⟨52817924838734495521000, 7754476410608585057500000, 1762974348245000544300000⟩,
  ⟨52817924838734495521000, 482549241146414398250000, 7754476410608587277900000⟩,
  ⟨52817924838734495521000, 7754476410608585057500000, 482549241146414051310000⟩,
  ⟨52817924838734495521000, 1762974348245000544300000, 7754476410608587277900000⟩,
  ⟨52817924838734495521000, 482549241146412039030000, 1762974348245003597400000⟩,
  ⟨25270384487923007455000, 2439906460394930531900000, 91639092481852323785000⟩,
  ⟨25270384487923007455000, 7468454447123216155500000, 2439906460394930531900000⟩,
  ⟨25270384487923007455000, 91639092481853312577000, 7468454447123218376000000⟩,
  ⟨25270384487923007455000, 7468454447123217265800000, 91639092481852323785000⟩,
  ⟨25270384487923007455000, 2439906460394930531900000, 7468454447123218376000000⟩,
  ⟨25270384487923007455000, 91639092481850537020000, 2439906460394933862500000⟩,
  ⟨17845545829281884032000, 291084706708073584490000, 291084706708076706990000⟩,
  ⟨17845545829281884032000, 9417830586583849639100000, 291084706708073480410000⟩,
  ⟨17845545829281884032000, 291084706708078511110000, 9417830586583849639100000⟩,
  ⟨72078565640523025934000, 1154315382192048905500000, 1154315382192051264700000⟩,
  ⟨72078565640523025934000, 7691369235615900246100000, 1154315382192049044300000⟩,
  ⟨72078565640523025934000, 1154315382192051542300000, 7691369235615901356300000⟩,
  ⟨3202142655857129617400, 179343210529389861240000, 17984649889483750665000⟩,
  ⟨3202142655857129617400, 9802672139581125598800000, 179343210529389687770000⟩,
  ⟨3202142655857129617400, 17984649889485893048000, 9802672139581126709000000⟩,
  ⟨3202142655857129617400, 9802672139581126709000000, 17984649889483750665000⟩,
  ⟨3202142655857129617400, 179343210529390728600000, 9802672139581128929500000⟩,
  ⟨3202142655857129617400, 17984649889481209295000, 179343210529392879660000⟩]

/-- `HardcodedQuadRule<kTria, 23>()`; /repo/lib/lf/quad/quad_rules_tria.cc:2662-2977. -/
def triaTab23 : List TabRow := [
  ⟨12640830276911311190000, 1595037989247572174400000, 238702536543536174280000⟩,
  ⟨12640830276911311190000, 8166259474208891200300000, 1595037989247572451900000⟩,
  ⟨12640830276911311190000, 238702536543537457980000, 8166259474208892310500000⟩,
  ⟨12640830276911311190000, 8166259474208892310500000, 238702536543536174280000⟩,
  ⟨12640830276911311190000, 1595037989247573007000000, 8166259474208892310500000⟩,
  ⟨12640830276911311190000, 238702536543533988530000, 1595037989247575505000000⟩,
  ⟨11125098648622567046000, 1141013603223645367400000, 51898217608445373905000⟩,
  ⟨11125098648622567046000, 8807088179167907870900000, 1141013603223645228600000⟩,
  ⟨11125098648622567046000, 51898217608446484128000, 8807088179167911201600000⟩,
  ⟨11125098648622567046000, 8807088179167908981200000, 51898217608445373905000⟩,
  ⟨11125098648622567046000, 1141013603223645644900000, 8807088179167911201600000⟩,
  ⟨11125098648622567046000, 51898217608443153459000, 1141013603223648420500000⟩,
  ⟨19578701295164665716000, 390072687570319903690000, 390072687570322748640000⟩,
  ⟨19578701295164665716000, 9219854624859357139500000, 390072687570319556750000⟩,
  ⟨19578701295164665716000, 390072687570323650700000, 9219854624859359359900000⟩,
  ⟨26640152155973911147000, 955398781717348988260000, 327410291887064164310000⟩,
  ⟨26640152155973911147000, 8717190926395586014800000, 955398781717349127040000⟩,
  ⟨26640152155973911147000, 327410291887065274530000, 8717190926395588235200000⟩,
  ⟨26640152155973911147000, 8717190926395587125000000, 327410291887064164310000⟩,
  ⟨26640152155973911147000, 955398781717349265820000, 8717190926395588235200000⟩,
  ⟨26640152155973911147000, 327410291887062082640000, 955398781717352318930000⟩,
  ⟨11405518381279167433000, 3111622680517019401400000, 24475998559663801959000⟩,
  ⟨11405518381279167433000, 6863901320923315729800000, 3111622680517019956500000⟩,
  ⟨11405518381279167433000, 24475998559663758591000, 6863901320923319060400000⟩,
  ⟨11405518381279167433000, 6863901320923316840000000, 24475998559663801959000⟩,
  ⟨11405518381279167433000, 3111622680517019401400000, 6863901320923319060400000⟩,
  ⟨11405518381279167433000, 24475998559662370813000, 3111622680517021621900000⟩,
  ⟨20573751722080448751000, 2056172320580520740400000, 87252895853085366690000⟩,
  ⟨20573751722080448751000, 7856574783566394604200000, 2056172320580521295500000⟩,
  ⟨20573751722080448751000, 87252895853085488120000, 7856574783566395714400000⟩,
  ⟨20573751722080448751000, 7856574783566393493900000, 87252895853085366690000⟩,
  ⟨20573751722080448751000, 2056172320580521018000000, 7856574783566395714400000⟩,
  ⟨20573751722080448751000, 87252895853083267674000, 2056172320580523793500000⟩,
  ⟨9762956639453626269200, 472616294497252981130000, 71625399102444847060000⟩,
  ⟨9762956639453626269200, 9455758306400302570800000, 472616294497252703580000⟩,
  ⟨9762956639453626269200, 71625399102446807298000, 9455758306400302570800000⟩,
  ⟨9762956639453626269200, 9455758306400302570800000, 71625399102444847060000⟩,
  ⟨9762956639453626269200, 472616294497255062800000, 9455758306400302570800000⟩,
  ⟨9762956639453626269200, 71625399102442297017000, 472616294497256866910000⟩,
  ⟨74905566965995798792000, 3585095935696250846200000, 685269541872130100170000⟩,
  ⟨74905566965995798792000, 5729634522431619192400000, 3585095935696251401300000⟩,
  ⟨74905566965995798792000, 685269541872130516500000, 5729634522431620302600000⟩,
  ⟨74905566965995798792000, 5729634522431619192400000, 685269541872130100170000⟩,
  ⟨74905566965995798792000, 3585095935696250291100000, 5729634522431620302600000⟩,
  ⟨74905566965995798792000, 685269541872129406280000, 3585095935696253066600000⟩,
  ⟨56989446339003766925000, 4803288773373085018800000, 393422453253830448070000⟩,
  ⟨56989446339003766925000, 4803288773373085018800000, 4803288773373085573900000⟩,
  ⟨56989446339003766925000, 393422453253829962350000, 4803288773373086684200000⟩,
  ⟨80606208185085726631000, 2404827720350126707400000, 1017283293272842614700000⟩,
  ⟨80606208185085726631000, 6577888986377030677800000, 2404827720350127262500000⟩,
  ⟨80606208185085726631000, 1017283293272842614700000, 6577888986377032898300000⟩,
  ⟨80606208185085726631000, 6577888986377031788100000, 1017283293272842614700000⟩,
  ⟨80606208185085726631000, 2404827720350126152300000, 6577888986377032898300000⟩,
  ⟨80606208185085726631000, 1017283293272840810600000, 2404827720350129205400000⟩,
  ⟨44799585127567693663000, 868410482076330536570000, 868410482076332895800000⟩,
  ⟨44799585127567693663000, 8263179035847336706400000, 868410482076330259020000⟩,
  ⟨44799585127567693663000, 868410482076334422350000, 8263179035847337816600000⟩,
  ⟨118373042315640039650000, 3943235060115415358000000, 2113529879769169561600000⟩,
  ⟨118373042315640039650000, 3943235060115414802900000, 3943235060115416468200000⟩,
  ⟨118373042315640039650000, 2113529879769168728900000, 3943235060115416468200000⟩,
  ⟨119039314437498749270000, 2662513178772472066700000, 2662513178772474287100000⟩,
  ⟨119039314437498749270000, 4674973642455053091100000, 2662513178772473176900000⟩,
  ⟨119039314437498749270000, 2662513178772473732000000, 4674973642455054756400000⟩,
  ⟨52351282465650300288000, 1729323031292239742900000, 583515752375154614360000⟩,
  ⟨52351282465650300288000, 7687161216332605295800000, 1729323031292239465400000⟩,
  ⟨52351282465650300288000, 583515752375155516420000, 7687161216332607516200000⟩,
  ⟨52351282465650300288000, 7687161216332605295800000, 583515752375154614360000⟩,
  ⟨52351282465650300288000, 1729323031292240298000000, 7687161216332607516200000⟩,
  ⟨52351282465650300288000, 583515752375152879640000, 1729323031292242240900000⟩,
  ⟨104221979294844002690000, 3163043076538381015400000, 1548301554055162843100000⟩,
  ⟨104221979294844002690000, 5288655369406456419100000, 3163043076538381570600000⟩,
  ⟨104221979294844002690000, 1548301554055162565500000, 5288655369406457529300000⟩,
  ⟨104221979294844002690000, 5288655369406456419100000, 1548301554055162843100000⟩,
  ⟨104221979294844002690000, 3163043076538381570600000, 5288655369406457529300000⟩,
  ⟨104221979294844002690000, 1548301554055161455300000, 3163043076538383235900000⟩,
  ⟨72797246963708693926000, 1371293873116474770800000, 1371293873116477823900000⟩,
  ⟨72797246963708693926000, 7257412253767047127800000, 1371293873116475048300000⟩,
  ⟨72797246963708693926000, 1371293873116478101400000, 7257412253767048238000000⟩,
  ⟨12037723020907043197000, 4989594312095863015700000, 20811375808273929570000⟩,
  ⟨12037723020907043197000, 4989594312095863015700000, 4989594312095863570800000⟩,
  ⟨12037723020907043197000, 20811375808273413490000, 4989594312095865236100000⟩,
  ⟨35488894172609102354000, 3977585768030076351900000, 147589697299451757390000⟩,
  ⟨35488894172609102354000, 5874824534670470832500000, 3977585768030077462100000⟩,
  ⟨35488894172609102354000, 147589697299451150240000, 5874824534670474163200000⟩,
  ⟨35488894172609102354000, 5874824534670470832500000, 147589697299451757390000⟩,
  ⟨35488894172609102354000, 3977585768030076351900000, 5874824534670473053000000⟩,
  ⟨35488894172609102354000, 147589697299450317570000, 3977585768030079127500000⟩,
  ⟨94759753346694373249000, 4446924421277275163400000, 1106151157445450089500000⟩,
  ⟨94759753346694373249000, 4446924421277275163400000, 4446924421277276273700000⟩,
  ⟨94759753346694373249000, 1106151157445449118000000, 4446924421277277383900000⟩,
  ⟨99676389400525072099000, 1987498063965361105900000, 1987498063965363603900000⟩,
  ⟨99676389400525072099000, 6025003872069274457600000, 1987498063965362216100000⟩,
  ⟨99676389400525072099000, 1987498063965362771200000, 6025003872069276678000000⟩,
  ⟨50877873283535161170000, 2787941698141022661700000, 329937081925328057340000⟩,
  ⟨50877873283535161170000, 6882121219933649003400000, 2787941698141023216800000⟩,
  ⟨50877873283535161170000, 329937081925328334900000, 6882121219933651223900000⟩,
  ⟨50877873283535161170000, 6882121219933649003400000, 329937081925328057340000⟩,
  ⟨50877873283535161170000, 2787941698141023216800000, 6882121219933650113600000⟩,
  ⟨50877873283535161170000, 329937081925326669560000, 2787941698141025437300000⟩,
  ⟨5326806164146572755400, 90164402055981952844000, 90164402055984919221000⟩,
  ⟨5326806164146572755400, 9819671195888033388100000, 90164402055981709982000⟩,
  ⟨5326806164146572755400, 90164402055986081486000, 9819671195888034498400000⟩,
  ⟨126265301615180979000000, 3333333333333332593200000, 3333333333333334258500000⟩]

/-- `HardcodedQuadRule<kTria, 24>()`; /repo/lib/lf/quad/quad_rules_tria.cc:2981-3323. -/
def triaTab24 : List TabRow := [
  ⟨62728449228001597129000, 3333333333333332593200000, 3333333333333334258500000⟩,
  ⟨65552663509426201474000, 4188909749106027313700000, 1622180501787945372500000⟩,
  ⟨65552663509426201474000, 4188909749106026758600000, 4188909749106028424000000⟩,
  ⟨65552663509426201474000, 1622180501787944262300000, 4188909749106028979100000⟩,
  ⟨51895080282000965663000, 1623606337169262725500000, 1623606337169264668400000⟩,
  ⟨51895080282000965663000, 6752787325661472328500000, 1623606337169263003100000⟩,
  ⟨51895080282000965663000, 1623606337169264946000000, 6752787325661474549000000⟩,
  ⟨70725229032424230535000, 2414797600735940075200000, 1703672824624437309700000⟩,
  ⟨70725229032424230535000, 5881529574639622337500000, 2414797600735940630300000⟩,
  ⟨70725229032424230535000, 1703672824624437032200000, 5881529574639624558000000⟩,
  ⟨70725229032424230535000, 5881529574639622337500000, 1703672824624437309700000⟩,
  ⟨70725229032424230535000, 2414797600735940075200000, 5881529574639624558000000⟩,
  ⟨70725229032424230535000, 1703672824624435644400000, 2414797600735942295600000⟩,
  ⟨76372213006623132156000, 3289758089242263428000000, 1697597958607360568700000⟩,
  ⟨76372213006623132156000, 5012643952150375170600000, 3289758089242263983100000⟩,
  ⟨76372213006623132156000, 1697597958607360291200000, 5012643952150377391100000⟩,
  ⟨76372213006623132156000, 5012643952150376280800000, 1697597958607360568700000⟩,
  ⟨76372213006623132156000, 3289758089242263983100000, 5012643952150377391100000⟩,
  ⟨76372213006623132156000, 1697597958607359458500000, 3289758089242265648400000⟩,
  ⟨19168498654645916863000, 409856290011169493990000, 409856290011172616490000⟩,
  ⟨19168498654645916863000, 9180287419977657403800000, 409856290011169424600000⟩,
  ⟨19168498654645916863000, 409856290011174073660000, 9180287419977658514000000⟩,
  ⟨3086272527483215782400, 67312708878882569763000, 67312708878885310626000⟩,
  ⟨3086272527483215782400, 9865374582242232293100000, 67312708878882110061000⟩,
  ⟨3086272527483215782400, 67312708878887184127000, 9865374582242232293100000⟩,
  ⟨26831357270838841061000, 931674097798811384760000, 383182258210193957270000⟩,
  ⟨26831357270838841061000, 8685143643990994588600000, 931674097798811523540000⟩,
  ⟨26831357270838841061000, 383182258210195136880000, 8685143643990995698800000⟩,
  ⟨26831357270838841061000, 8685143643990994588600000, 383182258210193957270000⟩,
  ⟨26831357270838841061000, 931674097798812494990000, 8685143643990995698800000⟩,
  ⟨26831357270838841061000, 383182258210191251100000, 931674097798814715430000⟩,
  ⟨75159271748706712665000, 3945202798001943289600000, 926564815207575470660000⟩,
  ⟨75159271748706712665000, 5128232386790481101000000, 3945202798001944399800000⟩,
  ⟨75159271748706712665000, 926564815207574499210000, 5128232386790483321400000⟩,
  ⟨75159271748706712665000, 5128232386790481101000000, 926564815207575470660000⟩,
  ⟨75159271748706712665000, 3945202798001943844700000, 5128232386790482211200000⟩,
  ⟨75159271748706712665000, 926564815207574499210000, 3945202798001945510000000⟩,
  ⟨36020670873987141632000, 1626774163944774143100000, 411887142484753873690000⟩,
  ⟨36020670873987141632000, 7961338693570472191400000, 1626774163944773865500000⟩,
  ⟨36020670873987141632000, 411887142484755885970000, 7961338693570472191400000⟩,
  ⟨36020670873987141632000, 7961338693570472191400000, 411887142484753873690000⟩,
  ⟨36020670873987141632000, 1626774163944775253300000, 7961338693570472191400000⟩,
  ⟨36020670873987141632000, 411887142484751583860000, 1626774163944777196200000⟩,
  ⟨44524384640817829539000, 2535890142188794715800000, 395709049701580550810000⟩,
  ⟨44524384640817829539000, 7068400808109625010900000, 2535890142188794715800000⟩,
  ⟨44524384640817829539000, 395709049701580828360000, 7068400808109626121100000⟩,
  ⟨44524384640817829539000, 7068400808109625010900000, 395709049701580550810000⟩,
  ⟨44524384640817829539000, 2535890142188795271000000, 7068400808109626121100000⟩,
  ⟨44524384640817829539000, 395709049701578885470000, 2535890142188797491400000⟩,
  ⟨49736259378412098209000, 3622522413177912681300000, 385927001748961398530000⟩,
  ⟨49736259378412098209000, 5991550585073126544700000, 3622522413177913791500000⟩,
  ⟨49736259378412098209000, 385927001748960774030000, 5991550585073127654900000⟩,
  ⟨49736259378412098209000, 5991550585073125434500000, 385927001748961398530000⟩,
  ⟨49736259378412098209000, 3622522413177913236400000, 5991550585073126544700000⟩,
  ⟨49736259378412098209000, 385927001748960218920000, 3622522413177915456800000⟩,
  ⟨71761757890787276210000, 2816225777061608370700000, 945349617365990324560000⟩,
  ⟨71761757890787276210000, 6238424605572400194500000, 2816225777061609481000000⟩,
  ⟨71761757890787276210000, 945349617365989769450000, 6238424605572403525100000⟩,
  ⟨71761757890787276210000, 6238424605572401304700000, 945349617365990324560000⟩,
  ⟨71761757890787276210000, 2816225777061608370700000, 6238424605572403525100000⟩,
  ⟨71761757890787276210000, 945349617365988381670000, 2816225777061611146300000⟩,
  ⟨21210746334018844642000, 3832726649926592177300000, 73879946322942405615000⟩,
  ⟨21210746334018844642000, 6093393403750465564500000, 3832726649926592732400000⟩,
  ⟨21210746334018844642000, 73879946322941703052000, 6093393403750467785000000⟩,
  ⟨21210746334018844642000, 6093393403750464454300000, 73879946322942405615000⟩,
  ⟨21210746334018844642000, 3832726649926592177300000, 6093393403750466674800000⟩,
  ⟨21210746334018844642000, 73879946322941425496000, 3832726649926594952900000⟩,
  ⟨20406375385582254528000, 2737503525162605089200000, 75460031623128184797000⟩,
  ⟨20406375385582254528000, 7187036443214266379100000, 2737503525162605089200000⟩,
  ⟨20406375385582254528000, 75460031623128531741000, 7187036443214269709800000⟩,
  ⟨20406375385582254528000, 7187036443214266379100000, 75460031623128184797000⟩,
  ⟨20406375385582254528000, 2737503525162605644300000, 7187036443214267489300000⟩,
  ⟨20406375385582254528000, 75460031623125756184000, 2737503525162607864700000⟩,
  ⟨21716233610853488169000, 4962552776757351291600000, 74894446485297954536000⟩,
  ⟨21716233610853488169000, 4962552776757350736500000, 4962552776757351846700000⟩,
  ⟨21716233610853488169000, 74894446485297139215000, 4962552776757353512100000⟩,
  ⟨12946061911989924145000, 941213427973660310410000, 72345584577821397607000⟩,
  ⟨12946061911989924145000, 8986440987448518491500000, 941213427973660310410000⟩,
  ⟨12946061911989924145000, 72345584577822030781000, 8986440987448520711900000⟩,
  ⟨12946061911989924145000, 8986440987448518491500000, 72345584577821397607000⟩,
  ⟨12946061911989924145000, 941213427973661143080000, 8986440987448519601700000⟩,
  ⟨12946061911989924145000, 72345584577818769501000, 941213427973663779860000⟩,
  ⟨102600043357549217810000, 2642313154382724960100000, 2642313154382726625400000⟩,
  ⟨102600043357549217810000, 4715373691234548414500000, 2642313154382726070300000⟩,
  ⟨102600043357549217810000, 2642313154382726625400000, 4715373691234548969600000⟩,
  ⟨59217810712715547236000, 1803961518867657210000000, 955662695273652579300000⟩,
  ⟨59217810712715547236000, 7240375785858689239300000, 1803961518867657487500000⟩,
  ⟨59217810712715547236000, 955662695273653550740000, 7240375785858691459800000⟩,
  ⟨59217810712715547236000, 7240375785858689239300000, 955662695273652579300000⟩,
  ⟨59217810712715547236000, 1803961518867657210000000, 7240375785858692570000000⟩,
  ⟨59217810712715547236000, 955662695273650081300000, 1803961518867659708000000⟩,
  ⟨51762473854263012576000, 4806125617925032234000000, 387748764149935185030000⟩,
  ⟨51762473854263012576000, 4806125617925032789100000, 4806125617925033344200000⟩,
  ⟨51762473854263012576000, 387748764149934421750000, 4806125617925034454500000⟩,
  ⟨18536133821231543482000, 1747373462828056833700000, 79879218808479677399000⟩,
  ⟨18536133821231543482000, 8172747318363463575600000, 1747373462828056556200000⟩,
  ⟨18536133821231543482000, 79879218808480145775000, 8172747318363465796100000⟩,
  ⟨18536133821231543482000, 8172747318363462465400000, 79879218808479677399000⟩,
  ⟨18536133821231543482000, 1747373462828057388800000, 8172747318363465796100000⟩,
  ⟨18536133821231543482000, 79879218808477647773000, 1747373462828059609300000⟩,
  ⟨50136965336944538593000, 963284955992150526690000, 963284955992153441030000⟩,
  ⟨50136965336944538593000, 8073430088015696171100000, 963284955992150804250000⟩,
  ⟨50136965336944538593000, 963284955992153579810000, 8073430088015697281300000⟩,
  ⟨8984737927232882724300, 372914720512912134520000, 80749108702087776801000⟩,
  ⟨8984737927232882724300, 9546336170785000296800000, 372914720512911648800000⟩,
  ⟨8984737927232882724300, 80749108702090066636000, 9546336170785000296800000⟩,
  ⟨8984737927232882724300, 9546336170785000296800000, 80749108702087776801000⟩,
  ⟨8984737927232882724300, 372914720512914077410000, 9546336170785000296800000⟩,
  ⟨8984737927232882724300, 80749108702084862466000, 372914720512916159080000⟩,
  ⟨94972932586763290225000, 3753529267020862536500000, 2492941465958274927000000⟩,
  ⟨94972932586763290225000, 3753529267020863091600000, 3753529267020863646700000⟩,
  ⟨94972932586763290225000, 2492941465958273816700000, 3753529267020864201900000⟩]

/-- `HardcodedQuadRule<kTria, 25>()`; /repo/lib/lf/quad/quad_rules_tria.cc:3327-3693. -/
def triaTab25 : List TabRow := [
  ⟨68449257741361232282000, 3876420304045633535800000, 2247159391908732373200000⟩,
  ⟨68449257741361232282000, 3876420304045634091000000, 3876420304045634646100000⟩,
  ⟨68449257741361232282000, 2247159391908731263000000, 3876420304045635756300000⟩,
  ⟨57936316180052967184000, 2110045080614965651300000, 2110045080614967594200000⟩,
  ⟨57936316180052967184000, 5779909838770066477000000, 2110045080614966206400000⟩,
  ⟨57936316180052967184000, 2110045080614966761500000, 5779909838770068697400000⟩,
  ⟨8374089159673526279100, 4404169274793433008800000, 18188666342743881488000⟩,
  ⟨8374089159673526279100, 5577642058863823137900000, 4404169274793433563900000⟩,
  ⟨8374089159673526279100, 18188666342743298188000, 5577642058863825358400000⟩,
  ⟨8374089159673526279100, 5577642058863823137900000, 18188666342743881488000⟩,
  ⟨8374089159673526279100, 4404169274793433563900000, 5577642058863823137900000⟩,
  ⟨8374089159673526279100, 18188666342742743076000, 4404169274793435784300000⟩,
  ⟨90088203508507380679000, 2994923158045084132800000, 2994923158045086353200000⟩,
  ⟨90088203508507380679000, 4010153683909830069100000, 2994923158045085243000000⟩,
  ⟨90088203508507380679000, 2994923158045084132800000, 4010153683909831179300000⟩,
  ⟨31557390123796375328000, 1590079061973278806700000, 369601415796714863340000⟩,
  ⟨31557390123796375328000, 8040319522230005011600000, 1590079061973278806700000⟩,
  ⟨31557390123796375328000, 369601415796715904170000, 8040319522230007232000000⟩,
  ⟨31557390123796375328000, 8040319522230007232000000, 369601415796714863340000⟩,
  ⟨31557390123796375328000, 1590079061973279084300000, 8040319522230007232000000⟩,
  ⟨31557390123796375328000, 369601415796712712280000, 1590079061973281582300000⟩,
  ⟨16986488609523682936000, 372229259924406336020000, 372229259924409458530000⟩,
  ⟨16986488609523682936000, 9255541480151183719700000, 372229259924406266640000⟩,
  ⟨16986488609523682936000, 372229259924410360580000, 9255541480151185940200000⟩,
  ⟨47575107837278859252000, 1773537967572528795100000, 788580680056353011680000⟩,
  ⟨47575107837278859252000, 7437881352371117360500000, 1773537967572529072700000⟩,
  ⟨47575107837278859252000, 788580680056353844340000, 7437881352371119581000000⟩,
  ⟨47575107837278859252000, 7437881352371118470800000, 788580680056353011680000⟩,
  ⟨47575107837278859252000, 1773537967572529905300000, 7437881352371119581000000⟩,
  ⟨47575107837278859252000, 788580680056350930010000, 1773537967572531848200000⟩,
  ⟨57457629312823998990000, 1451092435745002240400000, 1451092435745004738400000⟩,
  ⟨57457629312823998990000, 7097815128509992188600000, 1451092435745002795500000⟩,
  ⟨57457629312823998990000, 1451092435745005571100000, 7097815128509993298800000⟩,
  ⟨54421968062184607542000, 2700667358209593582600000, 688475294314979391340000⟩,
  ⟨54421968062184607542000, 6610857347475426193400000, 2700667358209594137700000⟩,
  ⟨54421968062184607542000, 688475294314979113790000, 6610857347475428413800000⟩,
  ⟨54421968062184607542000, 6610857347475427303600000, 688475294314979391340000⟩,
  ⟨54421968062184607542000, 2700667358209593582600000, 6610857347475428413800000⟩,
  ⟨54421968062184607542000, 688475294314977448450000, 2700667358209596358200000⟩,
  ⟨79201761439492181227000, 3413910330211498700400000, 1159998076409602119100000⟩,
  ⟨79201761439492181227000, 5426091593378898903000000, 3413910330211499255500000⟩,
  ⟨79201761439492181227000, 1159998076409601841500000, 5426091593378901123400000⟩,
  ⟨79201761439492181227000, 5426091593378898903000000, 1159998076409602119100000⟩,
  ⟨79201761439492181227000, 3413910330211498700400000, 5426091593378900013200000⟩,
  ⟨79201761439492181227000, 1159998076409600731300000, 3413910330211500365700000⟩,
  ⟨53200853477543934289000, 3739379797195843679900000, 483174342873769688270000⟩,
  ⟨53200853477543934289000, 5777445859930385729800000, 3739379797195844235000000⟩,
  ⟨53200853477543934289000, 483174342873769480100000, 5777445859930387950200000⟩,
  ⟨53200853477543934289000, 5777445859930386840000000, 483174342873769688270000⟩,
  ⟨53200853477543934289000, 3739379797195844790100000, 5777445859930386840000000⟩,
  ⟨53200853477543934289000, 483174342873768369880000, 3739379797195846455400000⟩,
  ⟨12726358126745073752000, 991330633416821899170000, 71283145012574263694000⟩,
  ⟨12726358126745073752000, 8937386221570603472800000, 991330633416821621620000⟩,
  ⟨12726358126745073752000, 71283145012575599431000, 8937386221570604583100000⟩,
  ⟨12726358126745073752000, 8937386221570603472800000, 71283145012574263694000⟩,
  ⟨12726358126745073752000, 991330633416822593060000, 8937386221570604583100000⟩,
  ⟨12726358126745073752000, 71283145012572060595000, 991330633416825229840000⟩,
  ⟨89569104461380295162000, 2995064186296745312200000, 2036929105842510412400000⟩,
  ⟨89569104461380295162000, 4968006707860744830500000, 2995064186296745867300000⟩,
  ⟨89569104461380295162000, 2036929105842509857300000, 4968006707860745940800000⟩,
  ⟨89569104461380295162000, 4968006707860744830500000, 2036929105842510412400000⟩,
  ⟨89569104461380295162000, 2995064186296745312200000, 4968006707860745940800000⟩,
  ⟨89569104461380295162000, 2036929105842509024600000, 2995064186296746977500000⟩,
  ⟨79556550687292105356000, 4247593045405747003200000, 1504813909188505993700000⟩,
  ⟨79556550687292105356000, 4247593045405746448000000, 4247593045405748113400000⟩,
  ⟨79556550687292105356000, 1504813909188504605900000, 4247593045405749223600000⟩,
  ⟨16318698410246214574000, 1786298486036162480600000, 72361617479481587720000⟩,
  ⟨16318698410246214574000, 8141339896484356408700000, 1786298486036162480600000⟩,
  ⟨16318698410246214574000, 72361617479482220894000, 8141339896484357519000000⟩,
  ⟨16318698410246214574000, 8141339896484356408700000, 72361617479481587720000⟩,
  ⟨16318698410246214574000, 1786298486036163590800000, 8141339896484357519000000⟩,
  ⟨16318698410246214574000, 72361617479479306558000, 1786298486036165533700000⟩,
  ⟨27273191839872141032000, 3620688018959720144700000, 129138832500325321380000⟩,
  ⟨27273191839872141032000, 6250173148539954759400000, 3620688018959720699800000⟩,
  ⟨27273191839872141032000, 129138832500325095860000, 6250173148539956979900000⟩,
  ⟨27273191839872141032000, 6250173148539953649200000, 129138832500325321380000⟩,
  ⟨27273191839872141032000, 3620688018959720699800000, 6250173148539955869700000⟩,
  ⟨27273191839872141032000, 129138832500324540750000, 3620688018959722365200000⟩,
  ⟨26362809607147100026000, 887929154893665473210000, 376879497842590865940000⟩,
  ⟨26362809607147100026000, 8735191347263743244500000, 887929154893665611990000⟩,
  ⟨26362809607147100026000, 376879497842592114940000, 8735191347263744354700000⟩,
  ⟨26362809607147100026000, 8735191347263743244500000, 376879497842590865940000⟩,
  ⟨26362809607147100026000, 887929154893666305880000, 8735191347263744354700000⟩,
  ⟨26362809607147100026000, 376879497842588090380000, 887929154893668803880000⟩,
  ⟨68700412960112765964000, 2336228101417152092100000, 1370066940870710015000000⟩,
  ⟨68700412960112765964000, 6293704957712137337800000, 2336228101417152924800000⟩,
  ⟨68700412960112765964000, 1370066940870710015000000, 6293704957712139558300000⟩,
  ⟨68700412960112765964000, 6293704957712138448000000, 1370066940870710015000000⟩,
  ⟨68700412960112765964000, 2336228101417152092100000, 6293704957712139558300000⟩,
  ⟨68700412960112765964000, 1370066940870707794500000, 2336228101417154590100000⟩,
  ⟨68271375937640080625000, 4622087087487061207700000, 755825825025878000880000⟩,
  ⟨68271375937640080625000, 4622087087487061207700000, 4622087087487061762800000⟩,
  ⟨68271375937640080625000, 755825825025877029440000, 4622087087487063428200000⟩,
  ⟨36571704539664238662000, 2565954097090197838500000, 245400602475243957700000⟩,
  ⟨36571704539664238662000, 7188645300434557405800000, 2565954097090198393600000⟩,
  ⟨36571704539664238662000, 245400602475244755670000, 7188645300434558516000000⟩,
  ⟨36571704539664238662000, 7188645300434558516000000, 245400602475243957700000⟩,
  ⟨36571704539664238662000, 2565954097090198948700000, 7188645300434558516000000⟩,
  ⟨36571704539664238662000, 245400602475241702560000, 2565954097090201169200000⟩,
  ⟨45914106299100188729000, 929497017007697989840000, 929497017007700487850000⟩,
  ⟨45914106299100188729000, 8141005965984600134500000, 929497017007698267400000⟩,
  ⟨45914106299100188729000, 929497017007701042960000, 8141005965984602355000000⟩,
  ⟨8464918170636661796600, 410688191117846435050000, 71888282616930409066000⟩,
  ⟨8464918170636661796600, 9517423526265222921700000, 410688191117845879940000⟩,
  ⟨8464918170636661796600, 71888282616932586144000, 9517423526265224031900000⟩,
  ⟨8464918170636661796600, 9517423526265224031900000, 71888282616930409066000⟩,
  ⟨8464918170636661796600, 410688191117847822830000, 9517423526265224031900000⟩,
  ⟨8464918170636661796600, 71888282616928006474000, 410688191117849765720000⟩,
  ⟨4032551441623084343200, 78353442826036307639000, 78353442826039031155000⟩,
  ⟨4032551441623084343200, 9843293114347924088700000, 78353442826035821916000⟩,
  ⟨4032551441623084343200, 78353442826041286295000, 9843293114347926309200000⟩,
  ⟨42220429732605386369000, 4890393696603954620800000, 219212606792090758390000⟩,
  ⟨42220429732605386369000, 4890393696603954620800000, 4890393696603955175900000⟩,
  ⟨42220429732605386369000, 219212606792090480830000, 4890393696603956841300000⟩,
  ⟨7558510392294402096100, 2794161886492607105300000, 8914643174981281724100⟩,
  ⟨7558510392294402096100, 7196923470332411421100000, 2794161886492607105300000⟩,
  ⟨7558510392294402096100, 8914643174980918516300, 7196923470332414751700000⟩,
  ⟨7558510392294402096100, 7196923470332411421100000, 8914643174981281724100⟩,
  ⟨7558510392294402096100, 2794161886492607660400000, 7196923470332412531300000⟩,
  ⟨7558510392294402096100, 8914643174979808293300, 2794161886492609880900000⟩]

/-- `HardcodedQuadRule<kTria, 26>()`; /repo/lib/lf/quad/quad_rules_tria.cc:3697-4093. -/
def triaTab26 : List TabRow := [
  ⟨6992632240801363802500, 800716549403165389620000, 47946609754366785461000⟩,
  ⟨6992632240801363802500, 9151336840842467790200000, 800716549403165112060000⟩,
  ⟨6992632240801363802500, 47946609754368485490000, 9151336840842468900400000⟩,
  ⟨6992632240801363802500, 9151336840842467790200000, 47946609754366785461000⟩,
  ⟨6992632240801363802500, 800716549403165944730000, 9151336840842468900400000⟩,
  ⟨6992632240801363802500, 47946609754364669098000, 800716549403168581510000⟩,
  ⟨6027823868584430153400, 316436115715307692000000, 291551962068358448690000⟩,
  ⟨6027823868584430153400, 9392011922216334518500000, 316436115715307275660000⟩,
  ⟨6027823868584430153400, 291551962068359871160000, 9392011922216335628700000⟩,
  ⟨6027823868584430153400, 9392011922216333408300000, 291551962068358448690000⟩,
  ⟨6027823868584430153400, 316436115715307830780000, 9392011922216335628700000⟩,
  ⟨6027823868584430153400, 291551962068356297630000, 316436115715311092060000⟩,
  ⟨24569126514830102320000, 667371225764660652710000, 667371225764663844600000⟩,
  ⟨24569126514830102320000, 8665257548470675086300000, 667371225764660375160000⟩,
  ⟨24569126514830102320000, 667371225764664677270000, 8665257548470677306800000⟩,
  ⟨16527723564838357750000, 753800475153986598850000, 262093640224986615390000⟩,
  ⟨16527723564838357750000, 8984105884621026438800000, 753800475153986321300000⟩,
  ⟨16527723564838357750000, 262093640224987378670000, 8984105884621028659300000⟩,
  ⟨16527723564838357750000, 8984105884621026438800000, 262093640224986615390000⟩,
  ⟨16527723564838357750000, 753800475153986182520000, 8984105884621029769500000⟩,
  ⟨16527723564838357750000, 262093640224984048000000, 753800475153989513190000⟩,
  ⟨5428536714983776692900, 331000343360322718530000, 56981179168752180489000⟩,
  ⟨5428536714983776692900, 9612018477470924970900000, 331000343360322510370000⟩,
  ⟨5428536714983776692900, 56981179168753559594000, 9612018477470927191300000⟩,
  ⟨5428536714983776692900, 9612018477470924970900000, 56981179168752180489000⟩,
  ⟨5428536714983776692900, 331000343360323689980000, 9612018477470927191300000⟩,
  ⟨5428536714983776692900, 56981179168748667674000, 331000343360325702260000⟩,
  ⟨2634765583409360493800, 63401164920766830274000, 63401164920769579811000⟩,
  ⟨2634765583409360493800, 9873197670158463390400000, 63401164920766370572000⟩,
  ⟨2634765583409360493800, 63401164920770525235000, 9873197670158465610900000⟩,
  ⟨32017989498564105970000, 1324861896145672901500000, 417247227421209468390000⟩,
  ⟨32017989498564105970000, 8257890876433117144400000, 1324861896145673179100000⟩,
  ⟨32017989498564105970000, 417247227421210231670000, 8257890876433118254600000⟩,
  ⟨32017989498564105970000, 8257890876433117144400000, 417247227421209468390000⟩,
  ⟨32017989498564105970000, 1324861896145673734200000, 8257890876433118254600000⟩,
  ⟨32017989498564105970000, 417247227421207317330000, 1324861896145676232200000⟩,
  ⟨23071055381891601710000, 1086871329144021014500000, 1000456591065275596700000⟩,
  ⟨23071055381891601710000, 7912672079790702417400000, 1086871329144021292000000⟩,
  ⟨23071055381891601710000, 1000456591065276290600000, 7912672079790704637900000⟩,
  ⟨23071055381891601710000, 7912672079790703527600000, 1000456591065275596700000⟩,
  ⟨23071055381891601710000, 1086871329144021847100000, 7912672079790704637900000⟩,
  ⟨23071055381891601710000, 1000456591065273237500000, 1086871329144024206400000⟩,
  ⟨26510795909336745853000, 4937530328963847803300000, 124939342072304879210000⟩,
  ⟨26510795909336745853000, 4937530328963847248100000, 4937530328963848358400000⟩,
  ⟨26510795909336745853000, 124939342072304393480000, 4937530328963849468600000⟩,
  ⟨71897366137993736976000, 2502723132905264602500000, 1206144022052490355500000⟩,
  ⟨71897366137993736976000, 6291132845042245458300000, 2502723132905264602500000⟩,
  ⟨71897366137993736976000, 1206144022052489939200000, 6291132845042246568600000⟩,
  ⟨71897366137993736976000, 6291132845042245458300000, 1206144022052490355500000⟩,
  ⟨71897366137993736976000, 2502723132905265157600000, 6291132845042245458300000⟩,
  ⟨71897366137993736976000, 1206144022052488828900000, 2502723132905266822900000⟩,
  ⟨41298836085434213750000, 3890220620427617404000000, 295379425169078370370000⟩,
  ⟨41298836085434213750000, 5814399954403304260400000, 3890220620427617959100000⟩,
  ⟨41298836085434213750000, 295379425169078335680000, 5814399954403305370600000⟩,
  ⟨41298836085434213750000, 5814399954403304260400000, 295379425169078370370000⟩,
  ⟨41298836085434213750000, 3890220620427617959100000, 5814399954403304260400000⟩,
  ⟨41298836085434213750000, 295379425169076947900000, 3890220620427620734600000⟩,
  ⟨68639791080428542644000, 3585092964276615501400000, 873784651638445236670000⟩,
  ⟨68639791080428542644000, 5541122384084939955800000, 3585092964276616056600000⟩,
  ⟨68639791080428542644000, 873784651638444542780000, 5541122384084942176200000⟩,
  ⟨68639791080428542644000, 5541122384084939955800000, 873784651638445236670000⟩,
  ⟨68639791080428542644000, 3585092964276615501400000, 5541122384084941066000000⟩,
  ⟨68639791080428542644000, 873784651638443710110000, 3585092964276617721900000⟩,
  ⟨97340339185914438042000, 3887874971075939711800000, 2224250057848120021300000⟩,
  ⟨97340339185914438042000, 3887874971075940266900000, 3887874971075940822000000⟩,
  ⟨97340339185914438042000, 2224250057848119188600000, 3887874971075941377100000⟩,
  ⟨51988227640871647120000, 1868691794762215585600000, 763119015129594124860000⟩,
  ⟨51988227640871647120000, 7368189190108189734500000, 1868691794762215585600000⟩,
  ⟨51988227640871647120000, 763119015129595235080000, 7368189190108191954900000⟩,
  ⟨51988227640871647120000, 7368189190108189734500000, 763119015129594124860000⟩,
  ⟨51988227640871647120000, 1868691794762216140700000, 7368189190108191954900000⟩,
  ⟨51988227640871647120000, 763119015129591765630000, 1868691794762218638700000⟩,
  ⟨97678234616237757937000, 2731471009290786788900000, 2731471009290788454200000⟩,
  ⟨97678234616237757937000, 4537057981418424756900000, 2731471009290787899100000⟩,
  ⟨97678234616237757937000, 2731471009290787899100000, 4537057981418426422200000⟩,
  ⟨9285737354990424496600, 4147059095903062875300000, 20575309653708658345000⟩,
  ⟨9285737354990424496600, 5832365594443229550600000, 4147059095903062875300000⟩,
  ⟨9285737354990424496600, 20575309653708129254000, 5832365594443230660800000⟩,
  ⟨9285737354990424496600, 5832365594443229550600000, 20575309653708658345000⟩,
  ⟨9285737354990424496600, 4147059095903062875300000, 5832365594443229550600000⟩,
  ⟨9285737354990424496600, 20575309653707296587000, 4147059095903065650800000⟩,
  ⟨87995835903476090495000, 3194153053834387079300000, 1704787284972489602700000⟩,
  ⟨87995835903476090495000, 5101059661193123595500000, 3194153053834387634400000⟩,
  ⟨87995835903476090495000, 1704787284972488770100000, 5101059661193125816000000⟩,
  ⟨87995835903476090495000, 5101059661193123595500000, 1704787284972489602700000⟩,
  ⟨87995835903476090495000, 3194153053834387079300000, 5101059661193124705700000⟩,
  ⟨87995835903476090495000, 1704787284972488214900000, 3194153053834388744600000⟩,
  ⟨14833808313282534873000, 1437376261997640181100000, 79996080914843028381000⟩,
  ⟨14833808313282534873000, 8482627657087516981300000, 1437376261997640181100000⟩,
  ⟨14833808313282534873000, 79996080914843670229000, 8482627657087518091600000⟩,
  ⟨14833808313282534873000, 8482627657087516981300000, 79996080914843028381000⟩,
  ⟨14833808313282534873000, 1437376261997641568900000, 8482627657087518091600000⟩,
  ⟨14833808313282534873000, 79996080914840339560000, 1437376261997643789300000⟩,
  ⟨57642518173284494620000, 4718285633211660168300000, 563428733576679940940000⟩,
  ⟨57642518173284494620000, 4718285633211660723400000, 4718285633211660723400000⟩,
  ⟨57642518173284494620000, 563428733576678830720000, 4718285633211662388800000⟩,
  ⟨66276297242726378567000, 1542014303645441730700000, 1542014303645444228700000⟩,
  ⟨66276297242726378567000, 6915971392709113763100000, 1542014303645442285800000⟩,
  ⟨66276297242726378567000, 1542014303645444228700000, 6915971392709115983500000⟩,
  ⟨50535622160443448986000, 2837881388594704068500000, 511658736851377873860000⟩,
  ⟨50535622160443448986000, 6650459874553917849500000, 2837881388594704623600000⟩,
  ⟨50535622160443448986000, 511658736851377526910000, 6650459874553920069900000⟩,
  ⟨50535622160443448986000, 6650459874553917849500000, 511658736851377873860000⟩,
  ⟨50535622160443448986000, 2837881388594704623600000, 6650459874553918959700000⟩,
  ⟨50535622160443448986000, 511658736851376416690000, 2837881388594707399200000⟩,
  ⟨84721725392640501173000, 2120431633022055173400000, 2120431633022057393800000⟩,
  ⟨84721725392640501173000, 5759136733955887432800000, 2120431633022056006100000⟩,
  ⟨84721725392640501173000, 2120431633022056838700000, 5759136733955888543000000⟩,
  ⟨82062003012939553626000, 4359854193843831771100000, 1280291612312336457800000⟩,
  ⟨82062003012939553626000, 4359854193843831771100000, 4359854193843832326200000⟩,
  ⟨82062003012939553626000, 1280291612312335347600000, 4359854193843833991600000⟩,
  ⟨31346689230402858747000, 2165466664734771173900000, 227845992508956714240000⟩,
  ⟨31346689230402858747000, 7606687342756272007800000, 2165466664734771173900000⟩,
  ⟨31346689230402858747000, 227845992508956540770000, 7606687342756275338500000⟩,
  ⟨31346689230402858747000, 7606687342756272007800000, 227845992508956714240000⟩,
  ⟨31346689230402858747000, 2165466664734772006500000, 7606687342756273118000000⟩,
  ⟨31346689230402858747000, 227845992508955014210000, 2165466664734773949400000⟩,
  ⟨102433312946116263780000, 3333333333333332593200000, 3333333333333334258500000⟩,
  ⟨22957791936993200005000, 3128985030748799856000000, 94732979122135619471000⟩,
  ⟨22957791936993200005000, 6776281990129064958200000, 3128985030748799856000000⟩,
  ⟨22957791936993200005000, 94732979122135740901000, 6776281990129066068500000⟩,
  ⟨22957791936993200005000, 6776281990129063848000000, 94732979122135619471000⟩,
  ⟨22957791936993200005000, 3128985030748800411100000, 6776281990129066068500000⟩,
  ⟨22957791936993200005000, 94732979122133798011000, 3128985030748802631500000⟩,
  ⟨5697744579341069721300, 2264347974077175196200000, 4640077321756527935200⟩,
  ⟨5697744579341069721300, 7731011948601068661800000, 2264347974077175196200000⟩,
  ⟨5697744579341069721300, 4640077321756974626500, 7731011948601069772000000⟩,
  ⟨5697744579341069721300, 7731011948601068661800000, 4640077321756527935200⟩,
  ⟨5697744579341069721300, 2264347974077175473800000, 7731011948601069772000000⟩,
  ⟨5697744579341069721300, 4640077321755170514100, 2264347974077177971800000⟩]

/-- `HardcodedQuadRule<kTria, 27>()`; /repo/lib/lf/quad/quad_rules_tria.cc:4097-4526. -/
def triaTab27 : List TabRow := [
  ⟨47800424837299536340000, 3807140211811871344200000, 2385719576376256756400000⟩,
  ⟨47800424837299536340000, 3807140211811871344200000, 3807140211811872454500000⟩,
  ⟨47800424837299536340000, 2385719576376255923700000, 3807140211811873009600000⟩,
  ⟨47050799047271057649000, 4466678037038645521200000, 1066643925922708541200000⟩,
  ⟨47050799047271057649000, 4466678037038646076300000, 4466678037038646631500000⟩,
  ⟨47050799047271057649000, 1066643925922707569800000, 4466678037038647741700000⟩,
  ⟨60251135120752072338000, 4161413788054121321000000, 1677172423891757357900000⟩,
  ⟨60251135120752072338000, 4161413788054121321000000, 4161413788054122431200000⟩,
  ⟨60251135120752072338000, 1677172423891756247700000, 4161413788054123541500000⟩,
  ⟨26063109364009343603000, 803046477884382658980000, 803046477884385850880000⟩,
  ⟨26063109364009343603000, 8393907044231230241100000, 803046477884382936540000⟩,
  ⟨26063109364009343603000, 803046477884387654990000, 8393907044231231351400000⟩,
  ⟨27658974168833618326000, 2870421965934966124200000, 307306047272728651010000⟩,
  ⟨27658974168833618326000, 6822271986792305398200000, 2870421965934966124200000⟩,
  ⟨27658974168833618326000, 307306047272729587760000, 6822271986792306508500000⟩,
  ⟨27658974168833618326000, 6822271986792305398200000, 307306047272728651010000⟩,
  ⟨27658974168833618326000, 2870421965934965569100000, 6822271986792306508500000⟩,
  ⟨27658974168833618326000, 307306047272727367310000, 2870421965934968344700000⟩,
  ⟨62787181020182592645000, 3450878417155683886000000, 1291526400634497306900000⟩,
  ⟨62787181020182592645000, 5257595182209818807100000, 3450878417155684441100000⟩,
  ⟨62787181020182592645000, 1291526400634497306900000, 5257595182209819917300000⟩,
  ⟨62787181020182592645000, 5257595182209818807100000, 1291526400634497306900000⟩,
  ⟨62787181020182592645000, 3450878417155683886000000, 5257595182209819917300000⟩,
  ⟨62787181020182592645000, 1291526400634495641600000, 3450878417155686106500000⟩,
  ⟨67356576990246774805000, 2334004066698709967100000, 2334004066698712465100000⟩,
  ⟨67356576990246774805000, 5331991866602576735100000, 2334004066698711077300000⟩,
  ⟨67356576990246774805000, 2334004066698711632500000, 5331991866602578955500000⟩,
  ⟨31975763497271965721000, 3759301570486617838400000, 280334860952500125600000⟩,
  ⟨31975763497271965721000, 5960363568560882452400000, 3759301570486618393500000⟩,
  ⟨31975763497271965721000, 280334860952499709260000, 5960363568560884672800000⟩,
  ⟨31975763497271965721000, 5960363568560882452400000, 280334860952500125600000⟩,
  ⟨31975763497271965721000, 3759301570486618393500000, 5960363568560882452400000⟩,
  ⟨31975763497271965721000, 280334860952499154150000, 3759301570486620613900000⟩,
  ⟨78739828906813167514000, 3011654651665091053700000, 3011654651665092719000000⟩,
  ⟨78739828906813167514000, 3976690696669816782500000, 3011654651665092163900000⟩,
  ⟨78739828906813167514000, 3011654651665091053700000, 3976690696669817892700000⟩,
  ⟨56412212723491814842000, 1747799663548999793400000, 1747799663549001736300000⟩,
  ⟨56412212723491814842000, 6504400672901997637600000, 1747799663549000071000000⟩,
  ⟨56412212723491814842000, 1747799663549002291400000, 6504400672901999858100000⟩,
  ⟨68576966152754095449000, 3169455889331319609100000, 2091309211376687626800000⟩,
  ⟨68576966152754095449000, 4739234899291993041700000, 3169455889331320164200000⟩,
  ⟨68576966152754095449000, 2091309211376686516500000, 4739234899291994707000000⟩,
  ⟨68576966152754095449000, 4739234899291992486600000, 2091309211376687626800000⟩,
  ⟨68576966152754095449000, 3169455889331319609100000, 4739234899291994707000000⟩,
  ⟨68576966152754095449000, 2091309211376685683900000, 3169455889331321829500000⟩,
  ⟨49311350594947768455000, 4072283930427198495000000, 660389128497386734830000⟩,
  ⟨49311350594947768455000, 5267326941075414215000000, 4072283930427199605300000⟩,
  ⟨49311350594947768455000, 660389128497386179720000, 5267326941075416435500000⟩,
  ⟨49311350594947768455000, 5267326941075414215000000, 660389128497386734830000⟩,
  ⟨49311350594947768455000, 4072283930427199050200000, 5267326941075415325200000⟩,
  ⟨49311350594947768455000, 660389128497386179720000, 4072283930427200715500000⟩,
  ⟨32276864524648403443000, 2135535984578239288000000, 410305768191818395760000⟩,
  ⟨32276864524648403443000, 7454158247229942801900000, 2135535984578239565600000⟩,
  ⟨32276864524648403443000, 410305768191818187600000, 7454158247229945022400000⟩,
  ⟨32276864524648403443000, 7454158247229942801900000, 410305768191818395760000⟩,
  ⟨32276864524648403443000, 2135535984578239565600000, 7454158247229945022400000⟩,
  ⟨32276864524648403443000, 410305768191816383480000, 2135535984578242063600000⟩,
  ⟨14639131808995490928000, 3288528780688926289600000, 52996403717990364299000⟩,
  ⟨14639131808995490928000, 6658474815593082851700000, 3288528780688927399800000⟩,
  ⟨14639131808995490928000, 52996403717990858695000, 6658474815593085072200000⟩,
  ⟨14639131808995490928000, 6658474815593082851700000, 52996403717990364299000⟩,
  ⟨14639131808995490928000, 3288528780688927399800000, 6658474815593082851700000⟩,
  ⟨14639131808995490928000, 52996403717988915805000, 3288528780688930175400000⟩,
  ⟨35586187064373157006000, 4855650541851627699500000, 288698916296744705070000⟩,
  ⟨35586187064373157006000, 4855650541851628254600000, 4855650541851628254600000⟩,
  ⟨35586187064373157006000, 288698916296743768320000, 4855650541851629920000000⟩,
  ⟨35653176552435067274000, 1392953061421487170900000, 630739954149509007840000⟩,
  ⟨35653176552435067274000, 7976306984429003543700000, 1392953061421487448400000⟩,
  ⟨35653176552435067274000, 630739954149510673180000, 7976306984429003543700000⟩,
  ⟨35653176552435067274000, 7976306984429003543700000, 630739954149509007840000⟩,
  ⟨35653176552435067274000, 1392953061421488558700000, 7976306984429003543700000⟩,
  ⟨35653176552435067274000, 630739954149507342510000, 1392953061421490224000000⟩,
  ⟨13886697644770883316000, 325715201801814874250000, 325715201801817580420000⟩,
  ⟨13886697644770883316000, 9348569596396366643300000, 325715201801814388530000⟩,
  ⟨13886697644770883316000, 325715201801819453920000, 9348569596396369973900000⟩,
  ⟨61738315654306721858000, 2552462546969780365900000, 1489628509382401599900000⟩,
  ⟨61738315654306721858000, 5957908943647818311700000, 2552462546969780365900000⟩,
  ⟨61738315654306721858000, 1489628509382401877500000, 5957908943647819421900000⟩,
  ⟨61738315654306721858000, 5957908943647818311700000, 1489628509382401599900000⟩,
  ⟨61738315654306721858000, 2552462546969779810800000, 5957908943647819421900000⟩,
  ⟨61738315654306721858000, 1489628509382400212100000, 2552462546969782586400000⟩,
  ⟨53468502948081234397000, 2083760156003740537900000, 946970824331307137190000⟩,
  ⟨53468502948081234397000, 6969269019664952047300000, 2083760156003741093000000⟩,
  ⟨53468502948081234397000, 946970824331306859630000, 6969269019664954267800000⟩,
  ⟨53468502948081234397000, 6969269019664952047300000, 946970824331307137190000⟩,
  ⟨53468502948081234397000, 2083760156003741093000000, 6969269019664954267800000⟩,
  ⟨53468502948081234397000, 946970824331305055520000, 2083760156003743591000000⟩,
  ⟨16212337988196681010000, 4400105519462154668500000, 55807170152601176180000⟩,
  ⟨16212337988196681010000, 5544087310385245048700000, 4400105519462154668500000⟩,
  ⟨16212337988196681010000, 55807170152600282798000, 5544087310385247269200000⟩,
  ⟨16212337988196681010000, 5544087310385243938500000, 55807170152601176180000⟩,
  ⟨16212337988196681010000, 4400105519462154668500000, 5544087310385245048700000⟩,
  ⟨16212337988196681010000, 55807170152600005242000, 4400105519462156888900000⟩,
  ⟨48716224614088581013000, 1275709019046774583800000, 1275709019046777081800000⟩,
  ⟨48716224614088581013000, 7448581961906448611900000, 1275709019046774583800000⟩,
  ⟨48716224614088581013000, 1275709019046777914500000, 7448581961906448611900000⟩,
  ⟨54653055464566344460000, 3022209412278211160300000, 750769024331962436800000⟩,
  ⟨54653055464566344460000, 6227021563389826264200000, 3022209412278211715400000⟩,
  ⟨54653055464566344460000, 750769024331962575580000, 6227021563389828484600000⟩,
  ⟨54653055464566344460000, 6227021563389826264200000, 750769024331962436800000⟩,
  ⟨54653055464566344460000, 3022209412278211160300000, 6227021563389828484600000⟩,
  ⟨54653055464566344460000, 750769024331961187800000, 3022209412278213380700000⟩,
  ⟨10075615636448496774000, 819468025835336788540000, 69825293244590181524000⟩,
  ⟨10075615636448496774000, 9110706680920073186100000, 819468025835336510990000⟩,
  ⟨10075615636448496774000, 69825293244591413178000, 9110706680920074296300000⟩,
  ⟨10075615636448496774000, 9110706680920073186100000, 69825293244590181524000⟩,
  ⟨10075615636448496774000, 819468025835337621210000, 9110706680920074296300000⟩,
  ⟨10075615636448496774000, 69825293244587596786000, 819468025835340257990000⟩,
  ⟨5983868042365805568100, 343649699121419890950000, 60935694037648341359000⟩,
  ⟨5983868042365805568100, 9595414606840930726900000, 343649699121419821560000⟩,
  ⟨5983868042365805568100, 60935694037650423027000, 9595414606840931837100000⟩,
  ⟨5983868042365805568100, 9595414606840930726900000, 60935694037648341359000⟩,
  ⟨5983868042365805568100, 343649699121420515450000, 9595414606840934057500000⟩,
  ⟨5983868042365805568100, 60935694037645565801000, 343649699121423013450000⟩,
  ⟨21635790176803533849000, 801120738471011173410000, 350344225276973952890000⟩,
  ⟨21635790176803533849000, 8848535036252014318600000, 801120738471010757080000⟩,
  ⟨21635790176803533849000, 350344225276975063110000, 8848535036252016539000000⟩,
  ⟨21635790176803533849000, 8848535036252014318600000, 350344225276973952890000⟩,
  ⟨21635790176803533849000, 801120738471011728520000, 8848535036252016539000000⟩,
  ⟨21635790176803533849000, 350344225276971593660000, 801120738471014226520000⟩,
  ⟨2877212028352507710100, 66392191809585988233000, 66392191809589136756000⟩,
  ⟨2877212028352507710100, 9867215616380824450000000, 66392191809585936191000⟩,
  ⟨2877212028352507710100, 66392191809589995444000, 9867215616380826670500000⟩,
  ⟨23111935558905514869000, 1472134318989224699400000, 193520013180389742480000⟩,
  ⟨23111935558905514869000, 8334345667830385107100000, 1472134318989224699400000⟩,
  ⟨23111935558905514869000, 193520013180389915950000, 8334345667830388437700000⟩,
  ⟨23111935558905514869000, 8334345667830385107100000, 193520013180389742480000⟩,
  ⟨23111935558905514869000, 1472134318989224977000000, 8334345667830388437700000⟩,
  ⟨23111935558905514869000, 193520013180387834280000, 1472134318989227475000000⟩,
  ⟨16971268694035111790000, 2297196532578432148800000, 73324725490404576642000⟩,
  ⟨16971268694035111790000, 7629478741931163821000000, 2297196532578432426300000⟩,
  ⟨16971268694035111790000, 73324725490405140427000, 7629478741931164931200000⟩,
  ⟨16971268694035111790000, 7629478741931162710800000, 73324725490404576642000⟩,
  ⟨16971268694035111790000, 2297196532578432703900000, 7629478741931163821000000⟩,
  ⟨16971268694035111790000, 73324725490402781203000, 2297196532578435201900000⟩,
  ⟨4233030678819246729300, 1476555211198697925600000, 4903284434629745112600⟩,
  ⟨4233030678819246729300, 8518541504366672345600000, 1476555211198697925600000⟩,
  ⟨4233030678819246729300, 4903284434630283961100, 8518541504366673455800000⟩,
  ⟨4233030678819246729300, 8518541504366672345600000, 4903284434629745112600⟩,
  ⟨4233030678819246729300, 1476555211198698480700000, 8518541504366673455800000⟩,
  ⟨4233030678819246729300, 4903284434627369625700, 1476555211198701533800000⟩]

/-- `HardcodedQuadRule<kTria, 28>()`; /repo/lib/lf/quad/quad_rules_tria.cc:4530-4986. -/
def triaTab28 : List TabRow := [
  ⟨71812331503230616980000, 3039829225164840664800000, 3039829225164842330100000⟩,
  ⟨71812331503230616980000, 3920341549670316450000000, 3039829225164842330100000⟩,
  ⟨71812331503230616980000, 3039829225164840664800000, 3920341549670318670500000⟩,
  ⟨10587697788404485007000, 455054005583463913600000, 215243853694561254610000⟩,
  ⟨10587697788404485007000, 9329702140721973791000000, 455054005583463636040000⟩,
  ⟨10587697788404485007000, 215243853694563336280000, 9329702140721976011400000⟩,
  ⟨10587697788404485007000, 9329702140721973791000000, 215243853694561254610000⟩,
  ⟨10587697788404485007000, 455054005583465093210000, 9329702140721976011400000⟩,
  ⟨10587697788404485007000, 215243853694558028020000, 455054005583466827930000⟩,
  ⟨29478361172571207992000, 2133944547670872937700000, 490696693575595060950000⟩,
  ⟨29478361172571207992000, 7375358758753531862600000, 2133944547670872937700000⟩,
  ⟨29478361172571207992000, 490696693575595199730000, 7375358758753534083000000⟩,
  ⟨29478361172571207992000, 7375358758753531862600000, 490696693575595060950000⟩,
  ⟨29478361172571207992000, 2133944547670873492800000, 7375358758753532972800000⟩,
  ⟨29478361172571207992000, 490696693575593118060000, 2133944547670875990800000⟩,
  ⟨1555676043407480549400, 48041261966578615791000, 48041261966581833703000⟩,
  ⟨1555676043407480549400, 9903917476066839142800000, 48041261966578624465000⟩,
  ⟨1555676043407480549400, 48041261966583759246000, 9903917476066839142800000⟩,
  ⟨44258525054465770385000, 4582799042404119283000000, 834401915191761434090000⟩,
  ⟨44258525054465770385000, 4582799042404119838100000, 4582799042404120393200000⟩,
  ⟨44258525054465770385000, 834401915191760601420000, 4582799042404121503400000⟩,
  ⟨62786281083384350848000, 2421025119193196406500000, 1776584502963703127200000⟩,
  ⟨62786281083384350848000, 5802390377843100743900000, 2421025119193197516800000⟩,
  ⟨62786281083384350848000, 1776584502963703404700000, 5802390377843100743900000⟩,
  ⟨62786281083384350848000, 5802390377843100743900000, 1776584502963703127200000⟩,
  ⟨62786281083384350848000, 2421025119193197516800000, 5802390377843100743900000⟩,
  ⟨62786281083384350848000, 1776584502963701739400000, 2421025119193198627000000⟩,
  ⟨71052931952240890034000, 3862679735700420558000000, 2274640528599159439200000⟩,
  ⟨71052931952240890034000, 3862679735700420002900000, 3862679735700421668200000⟩,
  ⟨71052931952240890034000, 2274640528599158051400000, 3862679735700422223300000⟩,
  ⟨65530570620496875894000, 3271907320191699830600000, 1898123562927368779300000⟩,
  ⟨65530570620496875894000, 4829969116880932222800000, 3271907320191700385700000⟩,
  ⟨65530570620496875894000, 1898123562927368224200000, 4829969116880932777900000⟩,
  ⟨65530570620496875894000, 4829969116880931667700000, 1898123562927368779300000⟩,
  ⟨65530570620496875894000, 3271907320191700385700000, 4829969116880932777900000⟩,
  ⟨65530570620496875894000, 1898123562927367669100000, 3271907320191702051000000⟩,
  ⟨8894477096277561036000, 1419981669331742413200000, 44583820232893221769000⟩,
  ⟨8894477096277561036000, 8535434510435363497600000, 1419981669331741858100000⟩,
  ⟨8894477096277561036000, 44583820232894089131000, 8535434510435366828300000⟩,
  ⟨8894477096277561036000, 8535434510435364607900000, 44583820232893221769000⟩,
  ⟨8894477096277561036000, 1419981669331742413200000, 8535434510435366828300000⟩,
  ⟨8894477096277561036000, 44583820232890342128000, 1419981669331745466300000⟩,
  ⟨40059646433474784682000, 1753963931914617191400000, 876779764843520492690000⟩,
  ⟨40059646433474784682000, 7369256303241862315900000, 1753963931914617469000000⟩,
  ⟨40059646433474784682000, 876779764843521047800000, 7369256303241863426100000⟩,
  ⟨40059646433474784682000, 7369256303241862315900000, 876779764843520492690000⟩,
  ⟨40059646433474784682000, 1753963931914617746500000, 7369256303241863426100000⟩,
  ⟨40059646433474784682000, 876779764843518549800000, 1753963931914619967000000⟩,
  ⟨42323478671382995520000, 3921396133344144940800000, 631803276344106712340000⟩,
  ⟨42323478671382995520000, 5446800590311747791700000, 3921396133344145495900000⟩,
  ⟨42323478671382995520000, 631803276344106712340000, 5446800590311750012200000⟩,
  ⟨42323478671382995520000, 5446800590311747791700000, 631803276344106712340000⟩,
  ⟨42323478671382995520000, 3921396133344144940800000, 5446800590311748901900000⟩,
  ⟨42323478671382995520000, 631803276344105879670000, 3921396133344147716400000⟩,
  ⟨65463742945444788543000, 2582640721504620984200000, 2582640721504622649500000⟩,
  ⟨65463742945444788543000, 4834718556990756366300000, 2582640721504622094400000⟩,
  ⟨65463742945444788543000, 2582640721504622094400000, 4834718556990758031600000⟩,
  ⟨11883821338438908116000, 3341456150359213284100000, 41494641339236736435000⟩,
  ⟨11883821338438908116000, 6617049208301550855500000, 3341456150359213284100000⟩,
  ⟨11883821338438908116000, 41494641339236415511000, 6617049208301553076000000⟩,
  ⟨11883821338438908116000, 6617049208301549745300000, 41494641339236736435000⟩,
  ⟨11883821338438908116000, 3341456150359213284100000, 6617049208301550855500000⟩,
  ⟨11883821338438908116000, 41494641339235027733000, 3341456150359216059600000⟩,
  ⟨21384711675089709652000, 1741461960511821449600000, 227948049259162482950000⟩,
  ⟨21384711675089709652000, 8030589990229016761300000, 1741461960511821449600000⟩,
  ⟨21384711675089709652000, 227948049259162899280000, 8030589990229017871600000⟩,
  ⟨21384711675089709652000, 8030589990229015651100000, 227948049259162482950000⟩,
  ⟨21384711675089709652000, 1741461960511822004700000, 8030589990229017871600000⟩,
  ⟨21384711675089709652000, 227948049259159846170000, 1741461960511824780300000⟩,
  ⟨25656386910186466770000, 2758390080718242098900000, 227008443717970145870000⟩,
  ⟨25656386910186466770000, 7014601475563788657300000, 2758390080718241543800000⟩,
  ⟨25656386910186466770000, 227008443717970909150000, 7014601475563789767500000⟩,
  ⟨25656386910186466770000, 7014601475563787547100000, 227008443717970145870000⟩,
  ⟨25656386910186466770000, 2758390080718242098900000, 7014601475563789767500000⟩,
  ⟨25656386910186466770000, 227008443717968411150000, 2758390080718244319300000⟩,
  ⟨4742702129446999025400, 262226671646522725700000, 61496485426639707975000⟩,
  ⟨4742702129446999025400, 9676276842926837540300000, 262226671646522309370000⟩,
  ⟨4742702129446999025400, 61496485426641989136000, 9676276842926837540300000⟩,
  ⟨4742702129446999025400, 9676276842926837540300000, 61496485426639707975000⟩,
  ⟨4742702129446999025400, 262226671646523246120000, 9676276842926839760800000⟩,
  ⟨4742702129446999025400, 61496485426636923743000, 262226671646526160450000⟩,
  ⟨51229932808520969520000, 2430472023659261404700000, 1120336293422709850200000⟩,
  ⟨51229932808520969520000, 6449191682918028467600000, 2430472023659261959800000⟩,
  ⟨51229932808520969520000, 1120336293422710127700000, 6449191682918029577800000⟩,
  ⟨51229932808520969520000, 6449191682918028467600000, 1120336293422709850200000⟩,
  ⟨51229932808520969520000, 2430472023659262514900000, 6449191682918029577800000⟩,
  ⟨51229932808520969520000, 1120336293422708184900000, 2430472023659264180200000⟩,
  ⟨11622726822320243473000, 2299929840579071627100000, 47814897729871333812000⟩,
  ⟨11622726822320243473000, 7652255261691057741700000, 2299929840579071904600000⟩,
  ⟨11622726822320243473000, 47814897729871463916000, 7652255261691058851900000⟩,
  ⟨11622726822320243473000, 7652255261691056631400000, 47814897729871333812000⟩,
  ⟨11622726822320243473000, 2299929840579072459800000, 7652255261691058851900000⟩,
  ⟨11622726822320243473000, 47814897729869104692000, 2299929840579074957800000⟩,
  ⟨39049716855431679426000, 1058958441786275045400000, 1058958441786277682200000⟩,
  ⟨39049716855431679426000, 7882083116427446301000000, 1058958441786274906600000⟩,
  ⟨39049716855431679426000, 1058958441786279070000000, 7882083116427448521400000⟩,
  ⟨67737978016627498762000, 4295522021188993289100000, 1408955957622013976900000⟩,
  ⟨67737978016627498762000, 4295522021188993289100000, 4295522021188993844200000⟩,
  ⟨67737978016627498762000, 1408955957622013144300000, 4295522021188994954400000⟩,
  ⟨44625580701382720761000, 2956082808724016519600000, 624487421796328864840000⟩,
  ⟨44625580701382720761000, 6419429769479655378800000, 2956082808724017074700000⟩,
  ⟨44625580701382720761000, 624487421796328101560000, 6419429769479657599300000⟩,
  ⟨44625580701382720761000, 6419429769479654268600000, 624487421796328864840000⟩,
  ⟨44625580701382720761000, 2956082808724017074700000, 6419429769479655378800000⟩,
  ⟨44625580701382720761000, 624487421796326991340000, 2956082808724019850300000⟩,
  ⟨29589418861769431132000, 1213934507540911922300000, 502111859134281163230000⟩,
  ⟨29589418861769431132000, 8283953633324806498100000, 1213934507540911922300000⟩,
  ⟨29589418861769431132000, 502111859134282134680000, 8283953633324807608300000⟩,
  ⟨29589418861769431132000, 8283953633324806498100000, 502111859134281163230000⟩,
  ⟨29589418861769431132000, 1213934507540913587700000, 8283953633324807608300000⟩,
  ⟨29589418861769431132000, 502111859134279150950000, 1213934507540915114200000⟩,
  ⟨31302673214842740429000, 3738238003102096196400000, 257279987428787430830000⟩,
  ⟨31302673214842740429000, 6004482009469115366700000, 3738238003102096751500000⟩,
  ⟨31302673214842740429000, 257279987428787326740000, 6004482009469117587100000⟩,
  ⟨31302673214842740429000, 6004482009469116476900000, 257279987428787430830000⟩,
  ⟨31302673214842740429000, 3738238003102096751500000, 6004482009469116476900000⟩,
  ⟨31302673214842740429000, 257279987428785938960000, 3738238003102099527000000⟩,
  ⟨15700888217440168819000, 4427834065202435609400000, 56465659934661618577000⟩,
  ⟨15700888217440168819000, 5515700274862902485800000, 4427834065202435609400000⟩,
  ⟨15700888217440168819000, 56465659934660794583000, 5515700274862905816400000⟩,
  ⟨15700888217440168819000, 5515700274862903596000000, 56465659934661618577000⟩,
  ⟨15700888217440168819000, 4427834065202435609400000, 5515700274862903596000000⟩,
  ⟨15700888217440168819000, 56465659934660517028000, 4427834065202437829900000⟩,
  ⟨63935692114778968145000, 3377986632005823275400000, 1180890697150950713300000⟩,
  ⟨63935692114778968145000, 5441122670843225872500000, 3377986632005823830500000⟩,
  ⟨63935692114778968145000, 1180890697150950297000000, 5441122670843228093000000⟩,
  ⟨63935692114778968145000, 5441122670843225872500000, 1180890697150950713300000⟩,
  ⟨63935692114778968145000, 3377986632005822720300000, 5441122670843228093000000⟩,
  ⟨63935692114778968145000, 1180890697150949186800000, 3377986632005824940700000⟩,
  ⟨16024580953965163882000, 922291891952822101560000, 182422910122947215530000⟩,
  ⟨16024580953965163882000, 8895285197924229780900000, 922291891952822101560000⟩,
  ⟨16024580953965163882000, 182422910122947978810000, 8895285197924232001300000⟩,
  ⟨16024580953965163882000, 8895285197924230891100000, 182422910122947215530000⟩,
  ⟨16024580953965163882000, 922291891952822240340000, 8895285197924232001300000⟩,
  ⟨16024580953965163882000, 182422910122944786910000, 922291891952825293450000⟩,
  ⟨38410552892975090289000, 4848411325625894274800000, 303177348748211485110000⟩,
  ⟨38410552892975090289000, 4848411325625895385000000, 4848411325625894829900000⟩,
  ⟨38410552892975090289000, 303177348748210895300000, 4848411325625896495200000⟩,
  ⟨59713348201241101335000, 1586376888630595949300000, 1586376888630597892200000⟩,
  ⟨59713348201241101335000, 6827246222738805325700000, 1586376888630596504500000⟩,
  ⟨59713348201241101335000, 1586376888630599002500000, 6827246222738806436000000⟩,
  ⟨25641260023390325187000, 608391923927586036890000, 608391923927589020620000⟩,
  ⟨25641260023390325187000, 8783216152144824873100000, 608391923927585551170000⟩,
  ⟨25641260023390325187000, 608391923927590339010000, 8783216152144825983300000⟩,
  ⟨3625672974930412690300, 702907404781327321830000, 12002556014871523012000⟩,
  ⟨3625672974930412690300, 9285090039203800493800000, 702907404781327321830000⟩,
  ⟨3625672974930412690300, 12002556014872878265000, 9285090039203802714200000⟩,
  ⟨3625672974930412690300, 9285090039203801604000000, 12002556014871523012000⟩,
  ⟨3625672974930412690300, 702907404781327738160000, 9285090039203802714200000⟩,
  ⟨3625672974930412690300, 12002556014869131262000, 702907404781330791280000⟩]

/-- `HardcodedQuadRule<kTria, 29>()`; /repo/lib/lf/quad/quad_rules_tria.cc:4990-5473. -/
def triaTab29 : List TabRow := [
  ⟨3846264857381249610600, 589421088402292056570000, 27287432479210704458000⟩,
  ⟨3846264857381249610600, 9383291479118497369100000, 589421088402291570850000⟩,
  ⟨3846264857381249610600, 27287432479212170300000, 9383291479118498479300000⟩,
  ⟨3846264857381249610600, 9383291479118497369100000, 27287432479210704458000⟩,
  ⟨3846264857381249610600, 589421088402293236190000, 9383291479118498479300000⟩,
  ⟨3846264857381249610600, 27287432479207729408000, 589421088402295456630000⟩,
  ⟨52261073484612249537000, 3497880100093317956600000, 1571776998671934877400000⟩,
  ⟨52261073484612249537000, 4930342901234747166100000, 3497880100093319066800000⟩,
  ⟨52261073484612249537000, 1571776998671933767100000, 4930342901234748831400000⟩,
  ⟨52261073484612249537000, 4930342901234747721200000, 1571776998671934877400000⟩,
  ⟨52261073484612249537000, 3497880100093319066800000, 4930342901234747721200000⟩,
  ⟨52261073484612249537000, 1571776998671933767100000, 3497880100093320177000000⟩,
  ⟨6764119746262052881900, 3230018235435501705600000, 21009666448275595221000⟩,
  ⟨6764119746262052881900, 6748972098116222673200000, 3230018235435501705600000⟩,
  ⟨6764119746262052881900, 21009666448275621242000, 6748972098116224893600000⟩,
  ⟨6764119746262052881900, 6748972098116222673200000, 21009666448275595221000⟩,
  ⟨6764119746262052881900, 3230018235435500595400000, 6748972098116224893600000⟩,
  ⟨6764119746262052881900, 21009666448274233463000, 3230018235435503926000000⟩,
  ⟨7582310515784521738300, 4989148246376861606200000, 21703507246276392863000⟩,
  ⟨7582310515784521738300, 4989148246376862161400000, 4989148246376862716500000⟩,
  ⟨7582310515784521738300, 21703507246275677289000, 4989148246376864381800000⟩,
  ⟨32195683537669076042000, 1581458542495161045900000, 681658088137464396320000⟩,
  ⟨32195683537669076042000, 7736883369367373308700000, 1581458542495161323500000⟩,
  ⟨32195683537669076042000, 681658088137464535090000, 7736883369367376639400000⟩,
  ⟨32195683537669076042000, 7736883369367374419000000, 681658088137464396320000⟩,
  ⟨32195683537669076042000, 1581458542495162156200000, 7736883369367375529200000⟩,
  ⟨32195683537669076042000, 681658088137463147320000, 1581458542495163821500000⟩,
  ⟨6360972185858165123300, 295494682613533683760000, 108309586036093533770000⟩,
  ⟨6360972185858165123300, 9596195731350373181500000, 295494682613533996010000⟩,
  ⟨6360972185858165123300, 108309586036095528700000, 9596195731350372071200000⟩,
  ⟨6360972185858165123300, 9596195731350373181500000, 108309586036093533770000⟩,
  ⟨6360972185858165123300, 295494682613533510280000, 9596195731350375401900000⟩,
  ⟨6360972185858165123300, 108309586036090636780000, 295494682613537187900000⟩,
  ⟨67726232860037963515000, 2918191734265370707000000, 2189323419801725567600000⟩,
  ⟨67726232860037963515000, 4892484845932904002900000, 2918191734265371817300000⟩,
  ⟨67726232860037963515000, 2189323419801725012500000, 4892484845932904558000000⟩,
  ⟨67726232860037963515000, 4892484845932904002900000, 2189323419801725567600000⟩,
  ⟨67726232860037963515000, 2918191734265370707000000, 4892484845932904558000000⟩,
  ⟨67726232860037963515000, 2189323419801723902300000, 2918191734265372372400000⟩,
  ⟨13807653747952240968000, 755221785129957801090000, 212868962407332593110000⟩,
  ⟨13807653747952240968000, 9031909252462708703700000, 755221785129957523530000⟩,
  ⟨13807653747952240968000, 212868962407333772720000, 9031909252462710924200000⟩,
  ⟨13807653747952240968000, 9031909252462709814000000, 212868962407332593110000⟩,
  ⟨13807653747952240968000, 755221785129958078640000, 9031909252462710924200000⟩,
  ⟨13807653747952240968000, 212868962407330025720000, 755221785129961131760000⟩,
  ⟨22563434227436682603000, 1171166695088988740600000, 408472165761024560980000⟩,
  ⟨22563434227436682603000, 8420361139149986629000000, 1171166695088988601900000⟩,
  ⟨22563434227436682603000, 408472165761026295700000, 8420361139149986629000000⟩,
  ⟨22563434227436682603000, 8420361139149986629000000, 408472165761024560980000⟩,
  ⟨22563434227436682603000, 1171166695088989295700000, 8420361139149988849400000⟩,
  ⟨22563434227436682603000, 408472165761021993590000, 1171166695088991793700000⟩,
  ⟨1347461159293507956100, 111662181081691909420000, 16034964960437636181000⟩,
  ⟨1347461159293507956100, 9872302853957870549800000, 111662181081691475740000⟩,
  ⟨1347461159293507956100, 16034964960438546910000, 9872302853957872770300000⟩,
  ⟨1347461159293507956100, 9872302853957869439600000, 16034964960437636181000⟩,
  ⟨1347461159293507956100, 111662181081692013510000, 9872302853957872770300000⟩,
  ⟨1347461159293507956100, 16034964960434999401000, 111662181081694667630000⟩,
  ⟨55855501475839371486000, 4343804267617306091900000, 1312391464765387816300000⟩,
  ⟨55855501475839371486000, 4343804267617306647000000, 4343804267617307202100000⟩,
  ⟨55855501475839371486000, 1312391464765386983600000, 4343804267617307757200000⟩,
  ⟨14302457530784456509000, 410973356271179326990000, 410973356271182449500000⟩,
  ⟨14302457530784456509000, 9178053287457638154100000, 410973356271179188210000⟩,
  ⟨14302457530784456509000, 410973356271183698500000, 9178053287457639264300000⟩,
  ⟨46931653381418383247000, 2080456492790871414500000, 1015459852268340290600000⟩,
  ⟨46931653381418383247000, 6904083654940788017400000, 2080456492790871969600000⟩,
  ⟨46931653381418383247000, 1015459852268340013000000, 6904083654940790237800000⟩,
  ⟨46931653381418383247000, 6904083654940788017400000, 1015459852268340290600000⟩,
  ⟨46931653381418383247000, 2080456492790871414500000, 6904083654940790237800000⟩,
  ⟨46931653381418383247000, 1015459852268338486500000, 2080456492790873912500000⟩,
  ⟨39114592291532449334000, 3922101149804348430000000, 415270612688226833930000⟩,
  ⟨39114592291532449334000, 5662628237507425499300000, 3922101149804348985100000⟩,
  ⟨39114592291532449334000, 415270612688226625760000, 5662628237507426609600000⟩,
  ⟨39114592291532449334000, 5662628237507424389100000, 415270612688226833930000⟩,
  ⟨39114592291532449334000, 3922101149804347874900000, 5662628237507425499300000⟩,
  ⟨39114592291532449334000, 415270612688225793100000, 3922101149804350650500000⟩,
  ⟨53151981815983146556000, 3597112755099758363300000, 938490411451324418880000⟩,
  ⟨53151981815983146556000, 5464396833448916801500000, 3597112755099759473500000⟩,
  ⟨53151981815983146556000, 938490411451324280100000, 5464396833448917911700000⟩,
  ⟨53151981815983146556000, 5464396833448916801500000, 938490411451324418880000⟩,
  ⟨53151981815983146556000, 3597112755099758918400000, 5464396833448917911700000⟩,
  ⟨53151981815983146556000, 938490411451323447430000, 3597112755099761138800000⟩,
  ⟨15256194116725976806000, 2458746994828754362000000, 86860298043841387833000⟩,
  ⟨15256194116725976806000, 7454392707127402983900000, 2458746994828754639500000⟩,
  ⟨15256194116725976806000, 86860298043842099069000, 7454392707127405204300000⟩,
  ⟨15256194116725976806000, 7454392707127405204300000, 86860298043841387833000⟩,
  ⟨15256194116725976806000, 2458746994828754917100000, 7454392707127405204300000⟩,
  ⟨15256194116725976806000, 86860298043839601068000, 2458746994828757137500000⟩,
  ⟨19126833358650086395000, 1670027381749231432100000, 175891240440456259050000⟩,
  ⟨19126833358650086395000, 8154081377810312725200000, 1670027381749231154600000⟩,
  ⟨19126833358650086395000, 175891240440456675390000, 8154081377810314945600000⟩,
  ⟨19126833358650086395000, 8154081377810312725200000, 175891240440456259050000⟩,
  ⟨19126833358650086395000, 1670027381749231154600000, 8154081377810314945600000⟩,
  ⟨19126833358650086395000, 175891240440453761050000, 1670027381749234207700000⟩,
  ⟨62696017213116229244000, 2084053051324007976900000, 2084053051324009642200000⟩,
  ⟨62696017213116229244000, 5831893897351981825800000, 2084053051324008254400000⟩,
  ⟨62696017213116229244000, 2084053051324009087100000, 5831893897351984046300000⟩,
  ⟨8708476156508758794800, 1150085986319464292900000, 55235245122125554984000⟩,
  ⟨8708476156508758794800, 8794678768558409354100000, 1150085986319464154100000⟩,
  ⟨8708476156508758794800, 55235245122126630513000, 8794678768558411574600000⟩,
  ⟨8708476156508758794800, 8794678768558410464400000, 55235245122125554984000⟩,
  ⟨8708476156508758794800, 1150085986319465125600000, 8794678768558411574600000⟩,
  ⟨8708476156508758794800, 55235245122123577399000, 1150085986319467346000000⟩,
  ⟨52857089291137955220000, 1607458844319635260500000, 1607458844319637758500000⟩,
  ⟨52857089291137955220000, 6785082311360726148300000, 1607458844319636093200000⟩,
  ⟨52857089291137955220000, 1607458844319638036100000, 6785082311360728368800000⟩,
  ⟨28345767408327333763000, 3153953981173191478700000, 238589269426556054020000⟩,
  ⟨28345767408327333763000, 6607456749400253404000000, 3153953981173190923600000⟩,
  ⟨28345767408327333763000, 238589269426556782610000, 6607456749400253404000000⟩,
  ⟨28345767408327333763000, 6607456749400252293800000, 238589269426556054020000⟩,
  ⟨28345767408327333763000, 3153953981173192033800000, 6607456749400253404000000⟩,
  ⟨28345767408327333763000, 238589269426554284600000, 3153953981173193699100000⟩,
  ⟨32909988819261079378000, 2232226502248206012600000, 402953345447718061510000⟩,
  ⟨32909988819261079378000, 7364820152304075717700000, 2232226502248206012600000⟩,
  ⟨32909988819261079378000, 402953345447719102350000, 7364820152304076827900000⟩,
  ⟨32909988819261079378000, 7364820152304075717700000, 402953345447718061510000⟩,
  ⟨32909988819261079378000, 2232226502248206845300000, 7364820152304076827900000⟩,
  ⟨32909988819261079378000, 402953345447716049230000, 2232226502248208510600000⟩,
  ⟨45894620824638047638000, 2883958599187324001200000, 678784043114470936330000⟩,
  ⟨45894620824638047638000, 6437257357698205062500000, 2883958599187324001200000⟩,
  ⟨45894620824638047638000, 678784043114470936330000, 6437257357698207282900000⟩,
  ⟨45894620824638047638000, 6437257357698205062500000, 678784043114470936330000⟩,
  ⟨45894620824638047638000, 2883958599187324001200000, 6437257357698207282900000⟩,
  ⟨45894620824638047638000, 678784043114469548550000, 2883958599187326776700000⟩,
  ⟨30672005823594596617000, 4884016029326027075200000, 231967941347945294520000⟩,
  ⟨30672005823594596617000, 4884016029326027075200000, 4884016029326028185400000⟩,
  ⟨30672005823594596617000, 231967941347944739410000, 4884016029326029295600000⟩,
  ⟨62591832494172218795000, 2673663502727755547600000, 1395356071810826548200000⟩,
  ⟨62591832494172218795000, 5930980425461417349100000, 2673663502727756102800000⟩,
  ⟨62591832494172218795000, 1395356071810826548200000, 5930980425461419569500000⟩,
  ⟨62591832494172218795000, 5930980425461417349100000, 1395356071810826548200000⟩,
  ⟨62591832494172218795000, 2673663502727754992500000, 5930980425461419569500000⟩,
  ⟨62591832494172218795000, 1395356071810824882800000, 2673663502727757768100000⟩,
  ⟨81551194038716138396000, 3023864112151284366800000, 3023864112151286032100000⟩,
  ⟨81551194038716138396000, 3952271775697430156200000, 3023864112151284921900000⟩,
  ⟨81551194038716138396000, 3023864112151284366800000, 3952271775697431821500000⟩,
  ⟨18206702056403711951000, 4057653952988915513300000, 80665857041666150229000⟩,
  ⟨18206702056403711951000, 5861680189969418197600000, 4057653952988916068500000⟩,
  ⟨18206702056403711951000, 80665857041665733895000, 5861680189969420418100000⟩,
  ⟨18206702056403711951000, 5861680189969418197600000, 80665857041666150229000⟩,
  ⟨18206702056403711951000, 4057653952988916068500000, 5861680189969419307900000⟩,
  ⟨18206702056403711951000, 80665857041664901228000, 4057653952988918288900000⟩,
  ⟨40864392206135724192000, 1144268129944254197600000, 1144268129944256973100000⟩,
  ⟨40864392206135724192000, 7711463740111488274200000, 1144268129944254336300000⟩,
  ⟨40864392206135724192000, 1144268129944256973100000, 7711463740111490494700000⟩,
  ⟨51565583176292574194000, 4647624310807388914300000, 704751378385221616260000⟩,
  ⟨51565583176292574194000, 4647624310807388914300000, 4647624310807390024500000⟩,
  ⟨51565583176292574194000, 704751378385221061150000, 4647624310807391134800000⟩,
  ⟨28044235664156564637000, 737218813900996500220000, 737218813900999692110000⟩,
  ⟨28044235664156564637000, 8525562372198003391300000, 737218813900996500220000⟩,
  ⟨28044235664156564637000, 737218813901000524780000, 8525562372198005611800000⟩,
  ⟨79566076420444636907000, 3906191787832636874700000, 2187616424334725695500000⟩,
  ⟨79566076420444636907000, 3906191787832637984900000, 3906191787832638540000000⟩,
  ⟨79566076420444636907000, 2187616424334724585200000, 3906191787832639095200000⟩,
  ⟨3443363125208809640900, 1863207276753595376100000, 1234468122874049652300⟩,
  ⟨3443363125208809640900, 8135558255123530591000000, 1863207276753595653700000⟩,
  ⟨3443363125208809640900, 1234468122874865514400, 8135558255123531701300000⟩,
  ⟨3443363125208809640900, 8135558255123529480800000, 1234468122874049652300⟩,
  ⟨3443363125208809640900, 1863207276753596208800000, 8135558255123530591000000⟩,
  ⟨3443363125208809640900, 1234468122872228734700, 1863207276753598706800000⟩]

/-- `HardcodedQuadRule<kTria, 30>()`; /repo/lib/lf/quad/quad_rules_tria.cc:5477-5996. -/
def triaTab30 : List TabRow := [
  ⟨21073792319562163235000, 2590538845210673679600000, 478351231407725743790000⟩,
  ⟨21073792319562163235000, 6931109923381602033700000, 2590538845210673124500000⟩,
  ⟨21073792319562163235000, 478351231407725951960000, 6931109923381603144000000⟩,
  ⟨21073792319562163235000, 6931109923381600923500000, 478351231407725743790000⟩,
  ⟨21073792319562163235000, 2590538845210673679600000, 6931109923381602033700000⟩,
  ⟨21073792319562163235000, 478351231407724286630000, 2590538845210675900100000⟩,
  ⟨858649506855246912650, 33187249366443552848000, 33187249366446714381000⟩,
  ⟨858649506855246912650, 9933625501267108193200000, 33187249366443509480000⟩,
  ⟨858649506855246912650, 33187249366447568732000, 9933625501267111523900000⟩,
  ⟨29624613725460061976000, 3915721882912563400800000, 796595269316006521220000⟩,
  ⟨29624613725460061976000, 5287682847771429939200000, 3915721882912563955900000⟩,
  ⟨29624613725460061976000, 796595269316006104890000, 5287682847771432159700000⟩,
  ⟨29624613725460061976000, 5287682847771429939200000, 796595269316006521220000⟩,
  ⟨29624613725460061976000, 3915721882912563955900000, 5287682847771431049500000⟩,
  ⟨29624613725460061976000, 796595269316004994660000, 3915721882912566176300000⟩,
  ⟨29721100922122426456000, 3561402832962335396300000, 576934012738742479920000⟩,
  ⟨29721100922122426456000, 5861663154298921707400000, 3561402832962335396300000⟩,
  ⟨29721100922122426456000, 576934012738742341140000, 5861663154298923927900000⟩,
  ⟨29721100922122426456000, 5861663154298921707400000, 576934012738742479920000⟩,
  ⟨29721100922122426456000, 3561402832962335396300000, 5861663154298922817600000⟩,
  ⟨29721100922122426456000, 576934012738741230920000, 3561402832962338171900000⟩,
  ⟨19009663342077580666000, 723724072246778316050000, 723724072246781230390000⟩,
  ⟨19009663342077580666000, 8552551855506439482100000, 723724072246778316050000⟩,
  ⟨19009663342077580666000, 723724072246782479390000, 8552551855506441702600000⟩,
  ⟨34385921937679616092000, 2830124973495887763500000, 772614375768841260550000⟩,
  ⟨34385921937679616092000, 6397260650735270282000000, 2830124973495887763500000⟩,
  ⟨34385921937679616092000, 772614375768840844220000, 6397260650735273612700000⟩,
  ⟨34385921937679616092000, 6397260650735271392300000, 772614375768841260550000⟩,
  ⟨34385921937679616092000, 2830124973495887208400000, 6397260650735273612700000⟩,
  ⟨34385921937679616092000, 772614375768839178880000, 2830124973495889984000000⟩,
  ⟨14222168338437471066000, 471579102421717660800000, 471579102421720505740000⟩,
  ⟨14222168338437471066000, 9056841795156561625300000, 471579102421717313850000⟩,
  ⟨14222168338437471066000, 471579102421721407800000, 9056841795156563845700000⟩,
  ⟨20462494841735992014000, 2416137624515243831300000, 227583842950000725390000⟩,
  ⟨20462494841735992014000, 7356278532534755720800000, 2416137624515244108900000⟩,
  ⟨20462494841735992014000, 227583842950001002950000, 7356278532534756831000000⟩,
  ⟨20462494841735992014000, 7356278532534755720800000, 227583842950000725390000⟩,
  ⟨20462494841735992014000, 2416137624515244386500000, 7356278532534756831000000⟩,
  ⟨20462494841735992014000, 227583842949998643720000, 2416137624515246884500000⟩,
  ⟨44363272530086707637000, 2527812471879329336800000, 1238119787706746521800000⟩,
  ⟨44363272530086707637000, 6234067740413924418900000, 2527812471879329892000000⟩,
  ⟨44363272530086707637000, 1238119787706746244300000, 6234067740413926639300000⟩,
  ⟨44363272530086707637000, 6234067740413924418900000, 1238119787706746521800000⟩,
  ⟨44363272530086707637000, 2527812471879329336800000, 6234067740413926639300000⟩,
  ⟨44363272530086707637000, 1238119787706745134100000, 2527812471879331557300000⟩,
  ⟨37671614647732400670000, 1849061063839171070700000, 1158819672361005997900000⟩,
  ⟨37671614647732400670000, 6992119263799821959900000, 1849061063839171625800000⟩,
  ⟨37671614647732400670000, 1158819672361006136700000, 6992119263799824180300000⟩,
  ⟨37671614647732400670000, 6992119263799821959900000, 1158819672361005997900000⟩,
  ⟨37671614647732400670000, 1849061063839171903400000, 6992119263799824180300000⟩,
  ⟨37671614647732400670000, 1158819672361003777500000, 1849061063839173846300000⟩,
  ⟨38920643661654224024000, 4680301736511254251400000, 639396526977491913570000⟩,
  ⟨38920643661654224024000, 4680301736511254251400000, 4680301736511254251400000⟩,
  ⟨38920643661654224024000, 639396526977490942120000, 4680301736511256471800000⟩,
  ⟨4232750726644443693500, 126866046744675987220000, 126866046744678849510000⟩,
  ⟨4232750726644443693500, 9746267906510645007100000, 126866046744675640270000⟩,
  ⟨4232750726644443693500, 126866046744680271980000, 9746267906510646117400000⟩,
  ⟨34020033780509362741000, 1937043771536401393100000, 665174447818816239050000⟩,
  ⟨34020033780509362741000, 7397781780644782090300000, 1937043771536401393100000⟩,
  ⟨34020033780509362741000, 665174447818816516610000, 7397781780644784310800000⟩,
  ⟨34020033780509362741000, 7397781780644782090300000, 665174447818816239050000⟩,
  ⟨34020033780509362741000, 1937043771536401393100000, 7397781780644784310800000⟩,
  ⟨34020033780509362741000, 665174447818813741050000, 1937043771536404168600000⟩,
  ⟨6033482842710588111400, 764012484393875451750000, 44387813770613614509000⟩,
  ⟨6033482842710588111400, 9191599701835511115900000, 764012484393875451750000⟩,
  ⟨6033482842710588111400, 44387813770615514031000, 9191599701835511115900000⟩,
  ⟨6033482842710588111400, 9191599701835510005700000, 44387813770613614509000⟩,
  ⟨6033482842710588111400, 764012484393876700750000, 9191599701835511115900000⟩,
  ⟨6033482842710588111400, 44387813770611073139000, 764012484393878921200000⟩,
  ⟨36934559174571428113000, 1215915082227278926100000, 1215915082227281562900000⟩,
  ⟨36934559174571428113000, 7568169835545439649800000, 1215915082227278926100000⟩,
  ⟨36934559174571428113000, 1215915082227281840400000, 7568169835545440760100000⟩,
  ⟨9794742889466213301600, 2090480874526896293300000, 46635793926886265695000⟩,
  ⟨9794742889466213301600, 7862883331546217657900000, 2090480874526896293300000⟩,
  ⟨9794742889466213301600, 46635793926886881522000, 7862883331546218768100000⟩,
  ⟨9794742889466213301600, 7862883331546217657900000, 46635793926886265695000⟩,
  ⟨9794742889466213301600, 2090480874526897126000000, 7862883331546218768100000⟩,
  ⟨9794742889466213301600, 46635793926884383520000, 2090480874526899346400000⟩,
  ⟨11372229504993387576000, 2985429940592426723000000, 47036817644770453906000⟩,
  ⟨11372229504993387576000, 6967533241762803308800000, 2985429940592426167900000⟩,
  ⟨11372229504993387576000, 47036817644770523295000, 6967533241762805529300000⟩,
  ⟨11372229504993387576000, 6967533241762803308800000, 47036817644770453906000⟩,
  ⟨11372229504993387576000, 2985429940592427278100000, 6967533241762803308800000⟩,
  ⟨11372229504993387576000, 47036817644769135516000, 2985429940592429498600000⟩,
  ⟨26823424230931541476000, 3343790400340310720000000, 251820667038687127930000⟩,
  ⟨26823424230931541476000, 6404388932621003505100000, 3343790400340310720000000⟩,
  ⟨26823424230931541476000, 251820667038687440180000, 6404388932621004615300000⟩,
  ⟨26823424230931541476000, 6404388932621002394900000, 251820667038687127930000⟩,
  ⟨26823424230931541476000, 3343790400340310720000000, 6404388932621003505100000⟩,
  ⟨26823424230931541476000, 251820667038685774840000, 3343790400340312940500000⟩,
  ⟨29350349015327620653000, 1232308023806951147200000, 657765738247428899400000⟩,
  ⟨29350349015327620653000, 8109926237945619398300000, 1232308023806950869600000⟩,
  ⟨29350349015327620653000, 657765738247430009620000, 8109926237945621618800000⟩,
  ⟨29350349015327620653000, 8109926237945619398300000, 657765738247428899400000⟩,
  ⟨29350349015327620653000, 1232308023806951702300000, 8109926237945621618800000⟩,
  ⟨29350349015327620653000, 657765738247426401400000, 1232308023806954477800000⟩,
  ⟨56515117714687410078000, 3385141624298457219100000, 1261240949849894710200000⟩,
  ⟨56515117714687410078000, 5353617425851647793100000, 3385141624298457774200000⟩,
  ⟨56515117714687410078000, 1261240949849894432700000, 5353617425851650013500000⟩,
  ⟨56515117714687410078000, 5353617425851647793100000, 1261240949849894710200000⟩,
  ⟨56515117714687410078000, 3385141624298457219100000, 5353617425851650013500000⟩,
  ⟨56515117714687410078000, 1261240949849893322500000, 3385141624298458884500000⟩,
  ⟨71582426348337927294000, 3544036021806874492400000, 1948709509235184711400000⟩,
  ⟨71582426348337927294000, 4507254468957940796200000, 3544036021806875602600000⟩,
  ⟨71582426348337927294000, 1948709509235183878800000, 4507254468957942461500000⟩,
  ⟨71582426348337927294000, 4507254468957940796200000, 1948709509235184711400000⟩,
  ⟨71582426348337927294000, 3544036021806874492400000, 4507254468957941351300000⟩,
  ⟨71582426348337927294000, 1948709509235183878800000, 3544036021806876157700000⟩,
  ⟨64630117250591458122000, 2630682977578082670800000, 1910014245722831405200000⟩,
  ⟨64630117250591458122000, 5459302776699086479100000, 2630682977578083781000000⟩,
  ⟨64630117250591458122000, 1910014245722831405200000, 5459302776699086479100000⟩,
  ⟨64630117250591458122000, 5459302776699086479100000, 1910014245722831405200000⟩,
  ⟨64630117250591458122000, 2630682977578083781000000, 5459302776699086479100000⟩,
  ⟨64630117250591458122000, 1910014245722829462300000, 2630682977578085446300000⟩,
  ⟨53764254827164039557000, 1824095615174528561800000, 1824095615174531059800000⟩,
  ⟨53764254827164039557000, 6351808769650939545700000, 1824095615174529394500000⟩,
  ⟨53764254827164039557000, 1824095615174531892500000, 6351808769650940655900000⟩,
  ⟨31407982904458307816000, 4345661739646696220000000, 275334061245498980250000⟩,
  ⟨31407982904458307816000, 5379004199107804140600000, 4345661739646697330200000⟩,
  ⟨31407982904458307816000, 275334061245498529220000, 5379004199107807471200000⟩,
  ⟨31407982904458307816000, 5379004199107805250800000, 275334061245498980250000⟩,
  ⟨31407982904458307816000, 4345661739646697330200000, 5379004199107805250800000⟩,
  ⟨31407982904458307816000, 275334061245498251670000, 4345661739646698440400000⟩,
  ⟨23509684970529826954000, 1640709870698783268100000, 280639219813729780260000⟩,
  ⟨23509684970529826954000, 8078650909487485876100000, 1640709870698783545700000⟩,
  ⟨23509684970529826954000, 280639219813731410900000, 8078650909487486986300000⟩,
  ⟨23509684970529826954000, 8078650909487486986300000, 280639219813729780260000⟩,
  ⟨23509684970529826954000, 1640709870698784933500000, 8078650909487486986300000⟩,
  ⟨23509684970529826954000, 280639219813727386340000, 1640709870698786876400000⟩,
  ⟨77980456629128955606000, 3622872793529497981200000, 2754254412941004037700000⟩,
  ⟨77980456629128955606000, 3622872793529497981200000, 3622872793529499091400000⟩,
  ⟨77980456629128955606000, 2754254412941002927400000, 3622872793529499646500000⟩,
  ⟨9152534380744136452800, 426819997060804007250000, 159024162689347069170000⟩,
  ⟨9152534380744136452800, 9414155840249848195000000, 426819997060803243970000⟩,
  ⟨9152534380744136452800, 159024162689349601860000, 9414155840249849305200000⟩,
  ⟨9152534380744136452800, 9414155840249848195000000, 159024162689347069170000⟩,
  ⟨9152534380744136452800, 426819997060805533810000, 9414155840249849305200000⟩,
  ⟨9152534380744136452800, 159024162689344085440000, 426819997060807684860000⟩,
  ⟨19109402735475095915000, 939597946527298694130000, 272942306520957758690000⟩,
  ⟨19109402735475095915000, 8787459746951742367600000, 939597946527298555350000⟩,
  ⟨19109402735475095915000, 272942306520959077080000, 8787459746951744588000000⟩,
  ⟨19109402735475095915000, 8787459746951743477800000, 272942306520957758690000⟩,
  ⟨19109402735475095915000, 939597946527299665580000, 8787459746951744588000000⟩,
  ⟨19109402735475095915000, 272942306520955260680000, 939597946527301747240000⟩,
  ⟨9599402787344584213000, 1354088535199344522900000, 56912114454161040131000⟩,
  ⟨9599402787344584213000, 8588999350346494532400000, 1354088535199344245400000⟩,
  ⟨9599402787344584213000, 56912114454161222277000, 8588999350346496752800000⟩,
  ⟨9599402787344584213000, 8588999350346494532400000, 56912114454161040131000⟩,
  ⟨9599402787344584213000, 1354088535199345355600000, 8588999350346496752800000⟩,
  ⟨9599402787344584213000, 56912114454158585497000, 1354088535199347853600000⟩,
  ⟨62024795140730023743000, 4367432485484601945000000, 1265135029030796387500000⟩,
  ⟨62024795140730023743000, 4367432485484601945000000, 4367432485484602500100000⟩,
  ⟨62024795140730023743000, 1265135029030795554800000, 4367432485484603610400000⟩,
  ⟨74572753813428776029000, 2724280407839281825700000, 2724280407839283491000000⟩,
  ⟨74572753813428776029000, 4551439184321434128200000, 2724280407839282935900000⟩,
  ⟨74572753813428776029000, 2724280407839283491000000, 4551439184321435793600000⟩,
  ⟨13212839615816252253000, 3962215147396591086200000, 51623470166213235311000⟩,
  ⟨13212839615816252253000, 5986161382437196198900000, 3962215147396591086200000⟩,
  ⟨13212839615816252253000, 51623470166212714894000, 5986161382437198419400000⟩,
  ⟨13212839615816252253000, 5986161382437196198900000, 51623470166213235311000⟩,
  ⟨13212839615816252253000, 3962215147396591086200000, 5986161382437197309200000⟩,
  ⟨13212839615816252253000, 51623470166212159782000, 3962215147396593861700000⟩,
  ⟨13956590598703838731000, 4973193390003085578900000, 53613219993828668819000⟩,
  ⟨13956590598703838731000, 4973193390003086689100000, 4973193390003086134000000⟩,
  ⟨13956590598703838731000, 53613219993828287180000, 4973193390003087799300000⟩,
  ⟨1678108557332011040900, 294840425976739400890000, 5337086606944912298100⟩,
  ⟨1678108557332011040900, 9699822487416315253100000, 294840425976739053950000⟩,
  ⟨1678108557332011040900, 5337086606946317424200, 9699822487416317473600000⟩,
  ⟨1678108557332011040900, 9699822487416316363400000, 5337086606944912298100⟩,
  ⟨1678108557332011040900, 294840425976740649890000, 9699822487416317473600000⟩,
  ⟨1678108557332011040900, 5337086606941911226500, 294840425976742245840000⟩]

/-- `HardcodedQuadRule<kTria, 31>()`; /repo/lib/lf/quad/quad_rules_tria.cc:6000-6549. -/
def triaTab31 : List TabRow := [
  ⟨41715604069431826487000, 3333333333333332593200000, 3333333333333334258500000⟩,
  ⟨20219941982596812899000, 4861524679130597714800000, 276950641738804084760000⟩,
  ⟨20219941982596812899000, 4861524679130598269900000, 4861524679130598825000000⟩,
  ⟨20219941982596812899000, 276950641738803460260000, 4861524679130599935200000⟩,
  ⟨29031466241818317670000, 1390906284720945795800000, 1066696808640775623300000⟩,
  ⟨29031466241818317670000, 7542396906638278997200000, 1390906284720946073400000⟩,
  ⟨29031466241818317670000, 1066696808640776317200000, 7542396906638278997200000⟩,
  ⟨29031466241818317670000, 7542396906638278997200000, 1066696808640775623300000⟩,
  ⟨29031466241818317670000, 1390906284720946906000000, 7542396906638278997200000⟩,
  ⟨29031466241818317670000, 1066696808640773402900000, 1390906284720948848900000⟩,
  ⟨44215413215441534689000, 4195880808642604709000000, 1608238382714790859500000⟩,
  ⟨44215413215441534689000, 4195880808642604709000000, 4195880808642605264100000⟩,
  ⟨44215413215441534689000, 1608238382714789471700000, 4195880808642606929500000⟩,
  ⟨6419258493848476170700, 1972331307896530439000000, 32611556637283187904000⟩,
  ⟨6419258493848476170700, 7995057135466185904700000, 1972331307896530439000000⟩,
  ⟨6419258493848476170700, 32611556637283656279000, 7995057135466188125200000⟩,
  ⟨6419258493848476170700, 7995057135466185904700000, 32611556637283187904000⟩,
  ⟨6419258493848476170700, 1972331307896530994100000, 7995057135466188125200000⟩,
  ⟨6419258493848476170700, 32611556637281297055000, 1972331307896533492100000⟩,
  ⟨14132571379638684227000, 2385241509843100127200000, 131398178404036562040000⟩,
  ⟨14132571379638684227000, 7483360311752862426000000, 2385241509843100127200000⟩,
  ⟨14132571379638684227000, 131398178404036891640000, 7483360311752865756700000⟩,
  ⟨14132571379638684227000, 7483360311752863536200000, 131398178404036562040000⟩,
  ⟨14132571379638684227000, 2385241509843099572100000, 7483360311752865756700000⟩,
  ⟨14132571379638684227000, 131398178404034532420000, 2385241509843102625200000⟩,
  ⟨21118649255516138384000, 792067965066985402170000, 792067965066988316500000⟩,
  ⟨21118649255516138384000, 8415864069866025865000000, 792067965066985124610000⟩,
  ⟨21118649255516138384000, 792067965066989287950000, 8415864069866028085400000⟩,
  ⟨2527545234361289671800, 297507293859899553390000, 23442211286868936716000⟩,
  ⟨2527545234361289671800, 9679050494853230768300000, 297507293859899275830000⟩,
  ⟨2527545234361289671800, 23442211286870962006000, 9679050494853231878500000⟩,
  ⟨2527545234361289671800, 9679050494853231878500000, 23442211286868936716000⟩,
  ⟨2527545234361289671800, 297507293859901045250000, 9679050494853231878500000⟩,
  ⟨2527545234361289671800, 23442211286866590503000, 297507293859903126920000⟩,
  ⟨4934330725135413313300, 177313492497139200970000, 177313492497142080610000⟩,
  ⟨4934330725135413313300, 9645373015005718198000000, 177313492497138888710000⟩,
  ⟨4934330725135413313300, 177313492497143121440000, 9645373015005720418500000⟩,
  ⟨6513477244867253148800, 3957839332968853818300000, 19614003698950207254000⟩,
  ⟨6513477244867253148800, 6022546663332195571200000, 3957839332968854373400000⟩,
  ⟨6513477244867253148800, 19614003698950055465000, 6022546663332197791600000⟩,
  ⟨6513477244867253148800, 6022546663332195571200000, 19614003698950207254000⟩,
  ⟨6513477244867253148800, 3957839332968853818300000, 6022546663332196681400000⟩,
  ⟨6513477244867253148800, 19614003698949222798000, 3957839332968856038700000⟩,
  ⟨50962897221706344314000, 3516800587760809393400000, 1526365657752197513300000⟩,
  ⟨50962897221706344314000, 4956833754486992815700000, 3516800587760809948500000⟩,
  ⟨50962897221706344314000, 1526365657752196680600000, 4956833754486995591300000⟩,
  ⟨50962897221706344314000, 4956833754486993370800000, 1526365657752197513300000⟩,
  ⟨50962897221706344314000, 3516800587760809393400000, 4956833754486994481100000⟩,
  ⟨50962897221706344314000, 1526365657752196403100000, 3516800587760811613900000⟩,
  ⟨39334352478690663008000, 2024821942617583414600000, 1134252783475029058300000⟩,
  ⟨39334352478690663008000, 6840925273907387804700000, 2024821942617583969700000⟩,
  ⟨39334352478690663008000, 1134252783475028780700000, 6840925273907388914900000⟩,
  ⟨39334352478690663008000, 6840925273907386694500000, 1134252783475029058300000⟩,
  ⟨39334352478690663008000, 2024821942617584524800000, 6840925273907388914900000⟩,
  ⟨39334352478690663008000, 1134252783475027670500000, 2024821942617586190100000⟩,
  ⟨35604046207093936922000, 4225539552222150607700000, 545213844446831366610000⟩,
  ⟨35604046207093936922000, 5229246603331018095100000, 4225539552222150607700000⟩,
  ⟨35604046207093936922000, 545213844446830742110000, 5229246603331020315500000⟩,
  ⟨35604046207093936922000, 5229246603331018095100000, 545213844446831366610000⟩,
  ⟨35604046207093936922000, 4225539552222150607700000, 5229246603331019205300000⟩,
  ⟨35604046207093936922000, 545213844446830742110000, 4225539552222152828200000⟩,
  ⟨24820572382538330820000, 1246805088474439715500000, 606049291607722168120000⟩,
  ⟨24820572382538330820000, 8147145619917838255100000, 1246805088474439299200000⟩,
  ⟨24820572382538330820000, 606049291607723139560000, 8147145619917839365300000⟩,
  ⟨24820572382538330820000, 8147145619917838255100000, 606049291607722168120000⟩,
  ⟨24820572382538330820000, 1246805088474440825800000, 8147145619917839365300000⟩,
  ⟨24820572382538330820000, 606049291607719392560000, 1246805088474442768700000⟩,
  ⟨27182187365067749484000, 2555462364028572852500000, 375889521575177576460000⟩,
  ⟨27182187365067749484000, 7068648114396248738300000, 2555462364028572852500000⟩,
  ⟨27182187365067749484000, 375889521575177854020000, 7068648114396252069000000⟩,
  ⟨27182187365067749484000, 7068648114396249848600000, 375889521575177576460000⟩,
  ⟨27182187365067749484000, 2555462364028573962700000, 7068648114396250958800000⟩,
  ⟨27182187365067749484000, 375889521575175356020000, 2555462364028576183200000⟩,
  ⟨5762914700421303696200, 745031299353863113440000, 43863301700616556464000⟩,
  ⟨5762914700421303696200, 9211105398945520494900000, 745031299353862974670000⟩,
  ⟨5762914700421303696200, 43863301700617918222000, 9211105398945521605100000⟩,
  ⟨5762914700421303696200, 9211105398945520494900000, 43863301700616556464000⟩,
  ⟨5762914700421303696200, 745031299353863807330000, 9211105398945521605100000⟩,
  ⟨5762914700421303696200, 43863301700613685496000, 745031299353866166560000⟩,
  ⟨20891663459107639479000, 4168072755236505444500000, 172734143249371197020000⟩,
  ⟨20891663459107639479000, 5659193101514123913600000, 4168072755236505999600000⟩,
  ⟨20891663459107639479000, 172734143249370641900000, 5659193101514125023900000⟩,
  ⟨20891663459107639479000, 5659193101514122803400000, 172734143249371197020000⟩,
  ⟨20891663459107639479000, 4168072755236505999600000, 5659193101514123913600000⟩,
  ⟨20891663459107639479000, 172734143249370364350000, 4168072755236507664900000⟩,
  ⟨31812115264334365344000, 1928717230061984533300000, 625780220143109106030000⟩,
  ⟨31812115264334365344000, 7445502549794905666800000, 1928717230061984533300000⟩,
  ⟨31812115264334365344000, 625780220143109522370000, 7445502549794907887200000⟩,
  ⟨31812115264334365344000, 7445502549794906777000000, 625780220143109106030000⟩,
  ⟨31812115264334365344000, 1928717230061984255800000, 7445502549794907887200000⟩,
  ⟨31812115264334365344000, 625780220143107718260000, 1928717230061987308900000⟩,
  ⟨9063846441419547150800, 473478189395524634580000, 184079470312829319990000⟩,
  ⟨9063846441419547150800, 9342442340291645663800000, 473478189395524426410000⟩,
  ⟨9063846441419547150800, 184079470312830673070000, 9342442340291646774000000⟩,
  ⟨9063846441419547150800, 9342442340291645663800000, 184079470312829319990000⟩,
  ⟨9063846441419547150800, 473478189395525883580000, 9342442340291646774000000⟩,
  ⟨9063846441419547150800, 184079470312826440350000, 473478189395528242800000⟩,
  ⟨56185017540065834360000, 2184364967909280252900000, 2184364967909282195800000⟩,
  ⟨56185017540065834360000, 5631270064181437273700000, 2184364967909280808000000⟩,
  ⟨56185017540065834360000, 2184364967909281363100000, 5631270064181439494200000⟩,
  ⟨47795979833642060486000, 1724507871838860118000000, 1724507871838862060900000⟩,
  ⟨47795979833642060486000, 6550984256322277543600000, 1724507871838860673100000⟩,
  ⟨47795979833642060486000, 1724507871838862893600000, 6550984256322278653800000⟩,
  ⟨16295433250928844770000, 510951808223812711800000, 510951808223815556740000⟩,
  ⟨16295433250928844770000, 8978096383552371939600000, 510951808223812711800000⟩,
  ⟨16295433250928844770000, 510951808223816805740000, 8978096383552373049900000⟩,
  ⟨33449796225228107388000, 3419050053475276573800000, 429032089427714424800000⟩,
  ⟨33449796225228107388000, 6151917857097009001400000, 3419050053475276573800000⟩,
  ⟨33449796225228107388000, 429032089427714424800000, 6151917857097011221900000⟩,
  ⟨33449796225228107388000, 6151917857097009001400000, 429032089427714424800000⟩,
  ⟨33449796225228107388000, 3419050053475277684000000, 6151917857097009001400000⟩,
  ⟨33449796225228107388000, 429032089427713037020000, 3419050053475279349300000⟩,
  ⟨18198567424737189125000, 3258139530575096531900000, 131890837790157033900000⟩,
  ⟨18198567424737189125000, 6609969631634745601500000, 3258139530575097087000000⟩,
  ⟨18198567424737189125000, 131890837790157311460000, 6609969631634747822000000⟩,
  ⟨18198567424737189125000, 6609969631634746711800000, 131890837790157033900000⟩,
  ⟨18198567424737189125000, 3258139530575096531900000, 6609969631634747822000000⟩,
  ⟨18198567424737189125000, 131890837790155368570000, 3258139530575099862600000⟩,
  ⟨4646851688465586968500, 2894259487571372857500000, 11968816307095988139000⟩,
  ⟨4646851688465586968500, 7093771696121531356000000, 2894259487571372857500000⟩,
  ⟨4646851688465586968500, 11968816307095786478000, 7093771696121533576500000⟩,
  ⟨4646851688465586968500, 7093771696121531356000000, 11968816307095988139000⟩,
  ⟨4646851688465586968500, 2894259487571372302400000, 7093771696121533576500000⟩,
  ⟨4646851688465586968500, 11968816307094398699000, 2894259487571375077900000⟩,
  ⟨64477933939920926976000, 2987897956760132700500000, 2191327614301768478300000⟩,
  ⟨64477933939920926976000, 4820774428938098821200000, 2987897956760133810800000⟩,
  ⟨64477933939920926976000, 2191327614301767923200000, 4820774428938099376300000⟩,
  ⟨64477933939920926976000, 4820774428938098266100000, 2191327614301768478300000⟩,
  ⟨64477933939920926976000, 2987897956760133810800000, 4820774428938099376300000⟩,
  ⟨64477933939920926976000, 2191327614301766812900000, 2987897956760134921000000⟩,
  ⟨42379488585683067897000, 2744757477427949843300000, 811298915693309669050000⟩,
  ⟨42379488585683067897000, 6443943606878740348900000, 2744757477427950398400000⟩,
  ⟨42379488585683067897000, 811298915693309807830000, 6443943606878742569300000⟩,
  ⟨42379488585683067897000, 6443943606878740348900000, 811298915693309669050000⟩,
  ⟨42379488585683067897000, 2744757477427950398400000, 6443943606878741459100000⟩,
  ⟨42379488585683067897000, 811298915693307864940000, 2744757477427952063700000⟩,
  ⟨48111377658483587411000, 3532298738914155800100000, 952781144820168263140000⟩,
  ⟨48111377658483587411000, 5514920116265675798000000, 3532298738914156910300000⟩,
  ⟨48111377658483587411000, 952781144820167846810000, 5514920116265676908200000⟩,
  ⟨48111377658483587411000, 5514920116265675798000000, 952781144820168263140000⟩,
  ⟨48111377658483587411000, 3532298738914156355200000, 5514920116265676908200000⟩,
  ⟨48111377658483587411000, 952781144820166459030000, 3532298738914158575700000⟩,
  ⟨11638303210282151083000, 4977486206264702950400000, 45027587470594567648000⟩,
  ⟨11638303210282151083000, 4977486206264702950400000, 4977486206264703505500000⟩,
  ⟨11638303210282151083000, 45027587470594099273000, 4977486206264705170800000⟩,
  ⟨57998345156928072727000, 2663678824750718154800000, 1468887080021119007100000⟩,
  ⟨57998345156928072727000, 5867434095228163393200000, 2663678824750718154800000⟩,
  ⟨57998345156928072727000, 1468887080021118452000000, 5867434095228165613600000⟩,
  ⟨57998345156928072727000, 5867434095228162283000000, 1468887080021119007100000⟩,
  ⟨57998345156928072727000, 2663678824750718154800000, 5867434095228163393200000⟩,
  ⟨57998345156928072727000, 1468887080021117896900000, 2663678824750720375300000⟩,
  ⟨68696975982841272310000, 3851684692456800451800000, 2296630615086399096500000⟩,
  ⟨68696975982841272310000, 3851684692456801006900000, 3851684692456801562000000⟩,
  ⟨68696975982841272310000, 2296630615086398263800000, 3851684692456802117100000⟩,
  ⟨61795202546734472396000, 2974914903679928279700000, 2974914903679929945000000⟩,
  ⟨61795202546734472396000, 4050170192640141775300000, 2974914903679929389900000⟩,
  ⟨61795202546734472396000, 2974914903679928279700000, 4050170192640143440600000⟩,
  ⟨18332933524634216754000, 960481521010510957970000, 275306300785874945300000⟩,
  ⟨18332933524634216754000, 8764212178203614200800000, 960481521010510680410000⟩,
  ⟨18332933524634216754000, 275306300785876367780000, 8764212178203615311000000⟩,
  ⟨18332933524634216754000, 8764212178203614200800000, 275306300785874945300000⟩,
  ⟨18332933524634216754000, 960481521010511651860000, 8764212178203615311000000⟩,
  ⟨18332933524634216754000, 275306300785872620770000, 960481521010514149860000⟩,
  ⟨1722006896362904412300, 50828094627277369683000, 50828094627280466164000⟩,
  ⟨1722006896362904412300, 9898343810745441340200000, 50828094627277265599000⟩,
  ⟨1722006896362904412300, 50828094627282105478000, 9898343810745442450400000⟩,
  ⟨22226689956261992329000, 1674078247783560569100000, 258751082199381692020000⟩,
  ⟨22226689956261992329000, 8067170670017056455200000, 1674078247783560569100000⟩,
  ⟨22226689956261992329000, 258751082199382143050000, 8067170670017059785900000⟩,
  ⟨22226689956261992329000, 8067170670017057565500000, 258751082199381692020000⟩,
  ⟨22226689956261992329000, 1674078247783560846600000, 8067170670017059785900000⟩,
  ⟨22226689956261992329000, 258751082199379367490000, 1674078247783563622200000⟩,
  ⟨52169886478902870869000, 4503409417390181745900000, 993181165219636508110000⟩,
  ⟨52169886478902870869000, 4503409417390181745900000, 4503409417390182856200000⟩,
  ⟨52169886478902870869000, 993181165219635397890000, 4503409417390183966400000⟩,
  ⟨9106263920612355736900, 1306776337702883206100000, 57973186847398387039000⟩,
  ⟨9106263920612355736900, 8635250475449717244600000, 1306776337702883206100000⟩,
  ⟨9106263920612355736900, 57973186847399271748000, 8635250475449719465000000⟩,
  ⟨9106263920612355736900, 8635250475449718354800000, 57973186847398387039000⟩,
  ⟨9106263920612355736900, 1306776337702884593900000, 8635250475449719465000000⟩,
  ⟨9106263920612355736900, 57973186847396218635000, 1306776337702886814400000⟩]

/-- `HardcodedQuadRule<kTria, 32>()`; /repo/lib/lf/quad/quad_rules_tria.cc:6553-7138. -/
def triaTab32 : List TabRow := [
  ⟨266619511667080839200, 14574454623698556485000, 14574454623701650798000⟩,
  ⟨266619511667080839200, 9970851090752599343900000, 14574454623698445896000⟩,
  ⟨266619511667080839200, 14574454623703103628000, 9970851090752600454100000⟩,
  ⟨41746095647689730398000, 2068316863159020135800000, 1588679412290467385400000⟩,
  ⟨41746095647689730398000, 6343003724550512201200000, 2068316863159020968500000⟩,
  ⟨41746095647689730398000, 1588679412290466830300000, 6343003724550514421700000⟩,
  ⟨41746095647689730398000, 6343003724550512201200000, 1588679412290467385400000⟩,
  ⟨41746095647689730398000, 2068316863159020413400000, 6343003724550514421700000⟩,
  ⟨41746095647689730398000, 1588679412290465164900000, 2068316863159022911400000⟩,
  ⟨15203261288865006599000, 4467614265331670275700000, 147664424308546586570000⟩,
  ⟨15203261288865006599000, 5384721310359783519300000, 4467614265331670830900000⟩,
  ⟨15203261288865006599000, 147664424308546204930000, 5384721310359785739800000⟩,
  ⟨15203261288865006599000, 5384721310359783519300000, 147664424308546586570000⟩,
  ⟨15203261288865006599000, 4467614265331670830900000, 5384721310359783519300000⟩,
  ⟨15203261288865006599000, 147664424308545649820000, 4467614265331673051300000⟩,
  ⟨7073136238314204358000, 4986508935788473428900000, 26982128423053645255000⟩,
  ⟨7073136238314204358000, 4986508935788472873800000, 4986508935788473984000000⟩,
  ⟨7073136238314204358000, 26982128423052864630000, 4986508935788475649400000⟩,
  ⟨26430218012662427644000, 2324662076463786808400000, 514311272402330696420000⟩,
  ⟨26430218012662427644000, 7161026651133881593100000, 2324662076463787086000000⟩,
  ⟨26430218012662427644000, 514311272402330765810000, 7161026651133884923800000⟩,
  ⟨26430218012662427644000, 7161026651133882703300000, 514311272402330696420000⟩,
  ⟨26430218012662427644000, 2324662076463787086000000, 7161026651133883813600000⟩,
  ⟨26430218012662427644000, 514311272402328406580000, 2324662076463789584000000⟩,
  ⟨12466349623345357803000, 1168349267069579422400000, 195597403645923935410000⟩,
  ⟨12466349623345357803000, 8636053329284496538100000, 1168349267069579283700000⟩,
  ⟨12466349623345357803000, 195597403645924594610000, 8636053329284497648300000⟩,
  ⟨12466349623345357803000, 8636053329284496538100000, 195597403645923935410000⟩,
  ⟨12466349623345357803000, 1168349267069579977600000, 8636053329284497648300000⟩,
  ⟨12466349623345357803000, 195597403645921263940000, 1168349267069582753100000⟩,
  ⟨15102905283568147498000, 3282405458449340063300000, 126185667501572066490000⟩,
  ⟨15102905283568147498000, 6591408874049088373300000, 3282405458449340618400000⟩,
  ⟨15102905283568147498000, 126185667501572673640000, 6591408874049089483500000⟩,
  ⟨15102905283568147498000, 6591408874049087263100000, 126185667501572066490000⟩,
  ⟨15102905283568147498000, 3282405458449340063300000, 6591408874049089483500000⟩,
  ⟨15102905283568147498000, 126185667501570453200000, 3282405458449343393900000⟩,
  ⟨18220877884380926037000, 2593509320031201492700000, 210621566756392201990000⟩,
  ⟨18220877884380926037000, 7195869113212406409400000, 2593509320031202047800000⟩,
  ⟨18220877884380926037000, 210621566756392653020000, 7195869113212407519600000⟩,
  ⟨18220877884380926037000, 7195869113212405299200000, 210621566756392201990000⟩,
  ⟨18220877884380926037000, 2593509320031202602900000, 7195869113212406409400000⟩,
  ⟨18220877884380926037000, 210621566756391265240000, 2593509320031204823400000⟩,
  ⟨37405448495800817932000, 1654639982373495299400000, 1175435092543479775900000⟩,
  ⟨37405448495800817932000, 7169924925083024369600000, 1654639982373495577000000⟩,
  ⟨37405448495800817932000, 1175435092543480331000000, 7169924925083025479800000⟩,
  ⟨37405448495800817932000, 7169924925083024369600000, 1175435092543479775900000⟩,
  ⟨37405448495800817932000, 1654639982373495854500000, 7169924925083026590000000⟩,
  ⟨37405448495800817932000, 1175435092543477139100000, 1654639982373497797400000⟩,
  ⟨22840770677860096870000, 3824649073809372468200000, 292988505404852273010000⟩,
  ⟨22840770677860096870000, 5882362420785776091500000, 3824649073809372468200000⟩,
  ⟨22840770677860096870000, 292988505404851995450000, 5882362420785777201700000⟩,
  ⟨22840770677860096870000, 5882362420785774981300000, 292988505404852273010000⟩,
  ⟨22840770677860096870000, 3824649073809373023300000, 5882362420785776091500000⟩,
  ⟨22840770677860096870000, 292988505404851162780000, 3824649073809374688600000⟩,
  ⟨8426018202671447946200, 3978170726467208373500000, 34428216522743556108000⟩,
  ⟨8426018202671447946200, 5987401057010047766800000, 3978170726467208928600000⟩,
  ⟨8426018202671447946200, 34428216522743304573000, 5987401057010049987300000⟩,
  ⟨8426018202671447946200, 5987401057010047766800000, 34428216522743556108000⟩,
  ⟨8426018202671447946200, 3978170726467208373500000, 5987401057010048877100000⟩,
  ⟨8426018202671447946200, 34428216522741916794000, 3978170726467211149000000⟩,
  ⟨27900075712066377091000, 4811681159958367537400000, 376637680083264647650000⟩,
  ⟨27900075712066377091000, 4811681159958368647600000, 4811681159958368092500000⟩,
  ⟨27900075712066377091000, 376637680083263814980000, 4811681159958369757800000⟩,
  ⟨41046033232396573337000, 3254174696466901051100000, 903702811448642562290000⟩,
  ⟨41046033232396573337000, 5842122492084456109000000, 3254174696466902161300000⟩,
  ⟨41046033232396573337000, 903702811448642839840000, 5842122492084457219300000⟩,
  ⟨41046033232396573337000, 5842122492084456109000000, 903702811448642562290000⟩,
  ⟨41046033232396573337000, 3254174696466901051100000, 5842122492084457219300000⟩,
  ⟨41046033232396573337000, 903702811448640896950000, 3254174696466903271600000⟩,
  ⟨41892953520631260461000, 4522857565116005229600000, 954284869767989957220000⟩,
  ⟨41892953520631260461000, 4522857565116005229600000, 4522857565116005784700000⟩,
  ⟨41892953520631260461000, 954284869767988985780000, 4522857565116007450000000⟩,
  ⟨22328384238099689002000, 1133391914876030748300000, 506976359267404738660000⟩,
  ⟨22328384238099689002000, 8359631725856564443700000, 1133391914876030331900000⟩,
  ⟨22328384238099689002000, 506976359267406473390000, 8359631725856565553900000⟩,
  ⟨22328384238099689002000, 8359631725856565553900000, 506976359267404738660000⟩,
  ⟨22328384238099689002000, 1133391914876031303400000, 8359631725856565553900000⟩,
  ⟨22328384238099689002000, 506976359267402726380000, 1133391914876033801400000⟩,
  ⟨31014173607614241822000, 3110416328276417452500000, 479444789155617986930000⟩,
  ⟨31014173607614241822000, 6410138882567965046300000, 3110416328276418007600000⟩,
  ⟨31014173607614241822000, 479444789155618056320000, 6410138882567966156500000⟩,
  ⟨31014173607614241822000, 6410138882567965046300000, 479444789155617986930000⟩,
  ⟨31014173607614241822000, 3110416328276417452500000, 6410138882567966156500000⟩,
  ⟨31014173607614241822000, 479444789155616946100000, 3110416328276419673000000⟩,
  ⟨4444462715759638451500, 2988371353889129888900000, 12766573802798491123000⟩,
  ⟨4444462715759638451500, 6998862072308071891100000, 2988371353889129888900000⟩,
  ⟨4444462715759638451500, 12766573802798775183000, 6998862072308073001300000⟩,
  ⟨4444462715759638451500, 6998862072308071891100000, 12766573802798491123000⟩,
  ⟨4444462715759638451500, 2988371353889130444000000, 6998862072308073001300000⟩,
  ⟨4444462715759638451500, 12766573802796832293000, 2988371353889132664400000⟩,
  ⟨63306472802430215074000, 3763287580479189875500000, 2473424839041620804100000⟩,
  ⟨63306472802430215074000, 3763287580479189875500000, 3763287580479190985700000⟩,
  ⟨63306472802430215074000, 2473424839041619693900000, 3763287580479190985700000⟩,
  ⟨7426146645925844717900, 1521122809437837897200000, 42625634151116000709000⟩,
  ⟨7426146645925844717900, 8436251556411046292900000, 1521122809437838174800000⟩,
  ⟨7426146645925844717900, 42625634151116087445000, 8436251556411048513300000⟩,
  ⟨7426146645925844717900, 8436251556411045182700000, 42625634151116000709000⟩,
  ⟨7426146645925844717900, 1521122809437837619700000, 8436251556411048513300000⟩,
  ⟨7426146645925844717900, 42625634151113311887000, 1521122809437841505400000⟩,
  ⟨5563531727953188428900, 886617050339115198020000, 38525119887190552824000⟩,
  ⟨5563531727953188428900, 9074857829773693707100000, 886617050339114781690000⟩,
  ⟨5563531727953188428900, 38525119887191650037000, 9074857829773695927500000⟩,
  ⟨5563531727953188428900, 9074857829773693707100000, 38525119887190552824000⟩,
  ⟨5563531727953188428900, 886617050339115198020000, 9074857829773695927500000⟩,
  ⟨5563531727953188428900, 38525119887188111201000, 886617050339118389910000⟩,
  ⟨64413665885876877221000, 2830182798495731733000000, 2830182798495733398300000⟩,
  ⟨64413665885876877221000, 4339634403008535423800000, 2830182798495732288100000⟩,
  ⟨64413665885876877221000, 2830182798495732843200000, 4339634403008536534000000⟩,
  ⟨59866795512413936362000, 3191525805930605086400000, 2019001486324766836400000⟩,
  ⟨59866795512413936362000, 4789472707744627522100000, 3191525805930606196600000⟩,
  ⟨59866795512413936362000, 2019001486324766003700000, 4789472707744629187400000⟩,
  ⟨59866795512413936362000, 4789472707744627522100000, 2019001486324766836400000⟩,
  ⟨59866795512413936362000, 3191525805930605086400000, 4789472707744629187400000⟩,
  ⟨59866795512413936362000, 2019001486324765726200000, 3191525805930607306800000⟩,
  ⟨54402330134671302367000, 4136797843254133577600000, 1726404313491732844800000⟩,
  ⟨54402330134671302367000, 4136797843254134132700000, 4136797843254134132700000⟩,
  ⟨54402330134671302367000, 1726404313491732012100000, 4136797843254135798000000⟩,
  ⟨29411580314099312200000, 1667556935821333241600000, 677103932212691633770000⟩,
  ⟨29411580314099312200000, 7655339131965975818500000, 1667556935821333241600000⟩,
  ⟨29411580314099312200000, 677103932212692050110000, 7655339131965976928700000⟩,
  ⟨29411580314099312200000, 7655339131965974708300000, 677103932212691633770000⟩,
  ⟨29411580314099312200000, 1667556935821333796700000, 7655339131965976928700000⟩,
  ⟨29411580314099312200000, 677103932212689413330000, 1667556935821335739600000⟩,
  ⟨9296391265969459333200, 302691910404441627550000, 302691910404444784740000⟩,
  ⟨9296391265969459333200, 9394616179191112026500000, 302691910404441592850000⟩,
  ⟨9296391265969459333200, 302691910404445652110000, 9394616179191115357100000⟩,
  ⟨4008705258365372926800, 128101964801118073380000, 128101964801121109140000⟩,
  ⟨4008705258365372926800, 9743796070397761077700000, 128101964801117899910000⟩,
  ⟨4008705258365372926800, 128101964801122791830000, 9743796070397761077700000⟩,
  ⟨42243717359755662832000, 2421379240194327930900000, 955724171106545339340000⟩,
  ⟨42243717359755662832000, 6622896588699126452200000, 2421379240194328486000000⟩,
  ⟨42243717359755662832000, 955724171106544506670000, 6622896588699129782900000⟩,
  ⟨42243717359755662832000, 6622896588699126452200000, 955724171106545339340000⟩,
  ⟨42243717359755662832000, 2421379240194329041100000, 6622896588699127562400000⟩,
  ⟨42243717359755662832000, 955724171106543812780000, 2421379240194330428900000⟩,
  ⟨51057279581830450690000, 2798617479978297018000000, 1503708645734582738400000⟩,
  ⟨51057279581830450690000, 5697673874287119133400000, 2798617479978298128200000⟩,
  ⟨51057279581830450690000, 1503708645734582738400000, 5697673874287121353900000⟩,
  ⟨51057279581830450690000, 5697673874287120243700000, 1503708645734582738400000⟩,
  ⟨51057279581830450690000, 2798617479978297018000000, 5697673874287121353900000⟩,
  ⟨51057279581830450690000, 1503708645734581073100000, 2798617479978299238400000⟩,
  ⟨12449795766082643982000, 673984002072566534820000, 243498506845871223740000⟩,
  ⟨12449795766082643982000, 9082517491081563143500000, 673984002072566257270000⟩,
  ⟨12449795766082643982000, 243498506845872819680000, 9082517491081563143500000⟩,
  ⟨12449795766082643982000, 9082517491081562033300000, 243498506845871223740000⟩,
  ⟨12449795766082643982000, 673984002072567367490000, 9082517491081563143500000⟩,
  ⟨12449795766082643982000, 243498506845868448180000, 673984002072569449160000⟩,
  ⟨49442528275111460867000, 3716879666934203574300000, 1293878673669234258300000⟩,
  ⟨49442528275111460867000, 4989241659396562167400000, 3716879666934204129400000⟩,
  ⟨49442528275111460867000, 1293878673669233980700000, 4989241659396564387800000⟩,
  ⟨49442528275111460867000, 4989241659396562167400000, 1293878673669234258300000⟩,
  ⟨49442528275111460867000, 3716879666934203019200000, 4989241659396563832700000⟩,
  ⟨49442528275111460867000, 1293878673669233148000000, 3716879666934205239700000⟩,
  ⟨37045565714682506669000, 4056281490658828481300000, 632274204565012321040000⟩,
  ⟨37045565714682506669000, 5311444304776159475200000, 4056281490658829036500000⟩,
  ⟨37045565714682506669000, 632274204565012043490000, 5311444304776160585400000⟩,
  ⟨37045565714682506669000, 5311444304776159475200000, 632274204565012321040000⟩,
  ⟨37045565714682506669000, 4056281490658829036500000, 5311444304776159475200000⟩,
  ⟨37045565714682506669000, 632274204565011488380000, 4056281490658830701800000⟩,
  ⟨65150354978812941020000, 3333333333333332593200000, 3333333333333334258500000⟩,
  ⟨19881742974626821947000, 620106498262642247270000, 620106498262645300380000⟩,
  ⟨19881742974626821947000, 8759787003474711619700000, 620106498262642108490000⟩,
  ⟨19881742974626821947000, 620106498262646410600000, 8759787003474713840100000⟩,
  ⟨9727966204915345109100, 2219801657374810277500000, 52666330207657725132000⟩,
  ⟨9727966204915345109100, 7727532012417532847300000, 2219801657374810277500000⟩,
  ⟨9727966204915345109100, 52666330207657430229000, 7727532012417535067800000⟩,
  ⟨9727966204915345109100, 7727532012417531737100000, 52666330207657725132000⟩,
  ⟨9727966204915345109100, 2219801657374811387800000, 7727532012417532847300000⟩,
  ⟨9727966204915345109100, 52666330207655764895000, 2219801657374813608200000⟩,
  ⟨21304182982500841602000, 1783256820378629481400000, 261588819796510496650000⟩,
  ⟨21304182982500841602000, 7955154359824859744400000, 1783256820378629758900000⟩,
  ⟨21304182982500841602000, 261588819796511051760000, 7955154359824861964900000⟩,
  ⟨21304182982500841602000, 7955154359824859744400000, 261588819796510496650000⟩,
  ⟨21304182982500841602000, 1783256820378629758900000, 7955154359824861964900000⟩,
  ⟨21304182982500841602000, 261588819796508553760000, 1783256820378631979400000⟩,
  ⟨5276871848088089808300, 426221905914095089420000, 55547678704322414264000⟩,
  ⟨5276871848088089808300, 9518230415381582210100000, 426221905914094742470000⟩,
  ⟨5276871848088089808300, 55547678704323533161000, 9518230415381584430500000⟩,
  ⟨5276871848088089808300, 9518230415381583320300000, 55547678704322414264000⟩,
  ⟨5276871848088089808300, 426221905914095366970000, 9518230415381584430500000⟩,
  ⟨5276871848088089808300, 55547678704319959631000, 426221905914098628250000⟩,
  ⟨62677988628244470787000, 2292779969280698826300000, 2292779969280701324300000⟩,
  ⟨62677988628244470787000, 5414440061438599016700000, 2292779969280699936500000⟩,
  ⟨62677988628244470787000, 2292779969280701046800000, 5414440061438600126900000⟩,
  ⟨33146995575295801727000, 1019588269002695835000000, 1019588269002698194300000⟩,
  ⟨33146995575295801727000, 7960823461994604999200000, 1019588269002695696300000⟩,
  ⟨33146995575295801727000, 1019588269002698610600000, 7960823461994607219700000⟩,
  ⟨850441238712440532530, 143443003792803787380000, 6230980203450695855900⟩,
  ⟨850441238712440532530, 9850326016003745355200000, 143443003792803544520000⟩,
  ⟨850441238712440532530, 6230980203453251320400, 9850326016003745355200000⟩,
  ⟨850441238712440532530, 9850326016003746465400000, 6230980203450695855900⟩,
  ⟨850441238712440532530, 143443003792805834350000, 9850326016003745355200000⟩,
  ⟨850441238712440532530, 6230980203448029802700, 143443003792807395600000⟩]

end Verif
