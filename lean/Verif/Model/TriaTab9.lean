import Verif.Model.TriaTabBase

/-! Generated by tools/quad_tables.py from /repo/lib/lf/quad/quad_rules_tria.cc. -/

namespace Verif

/-- `HardcodedQuadRule<kTria, 49>()`; /repo/lib/lf/quad/quad_rules_tria.cc:21966-23277. -/
def triaTab49 : List TabRow := [
  ⟨7589746913754114986800, 1747098543071730902800000, 400081550569362995320000⟩,
  ⟨7589746913754114986800, 7852819906358906587600000, 1747098543071730902800000⟩,
  ⟨7589746913754114986800, 400081550569363342260000, 7852819906358907697800000⟩,
  ⟨7589746913754114986800, 7852819906358906587600000, 400081550569362995320000⟩,
  ⟨7589746913754114986800, 1747098543071731735500000, 7852819906358906587600000⟩,
  ⟨7589746913754114986800, 400081550569360983040000, 1747098543071733678400000⟩,
  ⟨4820181544435112215600, 3869650571638261760100000, 86624172314518459170000⟩,
  ⟨4820181544435112215600, 6043725256047220995000000, 3869650571638262315200000⟩,
  ⟨4820181544435112215600, 86624172314517799975000, 6043725256047222105200000⟩,
  ⟨4820181544435112215600, 6043725256047219884800000, 86624172314518459170000⟩,
  ⟨4820181544435112215600, 3869650571638262315200000, 6043725256047220995000000⟩,
  ⟨4820181544435112215600, 86624172314517244864000, 3869650571638264535700000⟩,
  ⟨1406751832660999587800, 1260609334354053923100000, 13011091483538530199000⟩,
  ⟨1406751832660999587800, 8726379574162407282100000, 1260609334354053923100000⟩,
  ⟨1406751832660999587800, 13011091483540182523000, 8726379574162408392400000⟩,
  ⟨1406751832660999587800, 8726379574162407282100000, 13011091483538530199000⟩,
  ⟨1406751832660999587800, 1260609334354054755800000, 8726379574162408392400000⟩,
  ⟨1406751832660999587800, 13011091483536157964000, 1260609334354057253800000⟩,
  ⟨16149388372262440689000, 1783730162296315313600000, 1783730162296317534000000⟩,
  ⟨16149388372262440689000, 6432539675407367152400000, 1783730162296315868700000⟩,
  ⟨16149388372262440689000, 1783730162296318644300000, 6432539675407367152400000⟩,
  ⟨23431106687325608910000, 2839249520005004967500000, 2456285053783458516300000⟩,
  ⟨23431106687325608910000, 4704465426211536516200000, 2839249520005006077700000⟩,
  ⟨23431106687325608910000, 2456285053783457961200000, 4704465426211538181500000⟩,
  ⟨23431106687325608910000, 4704465426211537071300000, 2456285053783458516300000⟩,
  ⟨23431106687325608910000, 2839249520005004412400000, 4704465426211538181500000⟩,
  ⟨23431106687325608910000, 2456285053783457128500000, 2839249520005006632900000⟩,
  ⟨22589494991916104702000, 3302482693344622743900000, 2507416361736092835800000⟩,
  ⟨22589494991916104702000, 4190100944919283865200000, 3302482693344624409300000⟩,
  ⟨22589494991916104702000, 2507416361736092280700000, 4190100944919285530500000⟩,
  ⟨22589494991916104702000, 4190100944919284975400000, 2507416361736092835800000⟩,
  ⟨22589494991916104702000, 3302482693344622743900000, 4190100944919285530500000⟩,
  ⟨22589494991916104702000, 2507416361736091170400000, 3302482693344624964400000⟩,
  ⟨7895458930091910120300, 728406536060113435350000, 728406536060116349680000⟩,
  ⟨7895458930091910120300, 8543186927879770076200000, 728406536060113435350000⟩,
  ⟨7895458930091910120300, 728406536060116627240000, 8543186927879771186400000⟩,
  ⟨2132067406496095595600, 2560459410681578118500000, 15097374938804343069000⟩,
  ⟨2132067406496095595600, 7424443214379616851100000, 2560459410681578118500000⟩,
  ⟨2132067406496095595600, 15097374938804475342000, 7424443214379620181700000⟩,
  ⟨2132067406496095595600, 7424443214379617961300000, 15097374938804343069000⟩,
  ⟨2132067406496095595600, 2560459410681577563400000, 7424443214379620181700000⟩,
  ⟨2132067406496095595600, 15097374938801977340000, 2560459410681580894000000⟩,
  ⟨16234183150526104722000, 2603953161344761957400000, 1089833802129251960600000⟩,
  ⟨16234183150526104722000, 6306213036525984971800000, 2603953161344762512500000⟩,
  ⟨16234183150526104722000, 1089833802129251960600000, 6306213036525987192200000⟩,
  ⟨16234183150526104722000, 6306213036525986082000000, 1089833802129251960600000⟩,
  ⟨16234183150526104722000, 2603953161344762512500000, 6306213036525986082000000⟩,
  ⟨16234183150526104722000, 1089833802129250572800000, 2603953161344764732900000⟩,
  ⟨19654527394101198486000, 4289883556394070152100000, 1420232887211859973400000⟩,
  ⟨19654527394101198486000, 4289883556394070152100000, 4289883556394070707200000⟩,
  ⟨19654527394101198486000, 1420232887211859140700000, 4289883556394071817400000⟩,
  ⟨13556749468707231764000, 1707126963793420271200000, 1019687169087761247100000⟩,
  ⟨13556749468707231764000, 7273185867118818759300000, 1707126963793420548800000⟩,
  ⟨13556749468707231764000, 1019687169087761247100000, 7273185867118820979700000⟩,
  ⟨13556749468707231764000, 7273185867118818759300000, 1019687169087761247100000⟩,
  ⟨13556749468707231764000, 1707126963793419438500000, 7273185867118820979700000⟩,
  ⟨13556749468707231764000, 1019687169087759581700000, 1707126963793422769200000⟩,
  ⟨8163791134712301313100, 3746440580951249099700000, 197722885748598982410000⟩,
  ⟨8163791134712301313100, 6055836533300152924000000, 3746440580951249654800000⟩,
  ⟨8163791134712301313100, 197722885748598531390000, 6055836533300155144500000⟩,
  ⟨8163791134712301313100, 6055836533300151813800000, 197722885748598982410000⟩,
  ⟨8163791134712301313100, 3746440580951250209900000, 6055836533300151813800000⟩,
  ⟨8163791134712301313100, 197722885748597976270000, 3746440580951251320100000⟩,
  ⟨2395150880895178711000, 4351684572939830686300000, 13541852880936801427000⟩,
  ⟨2395150880895178711000, 5634773574179232635800000, 4351684572939831796600000⟩,
  ⟨2395150880895178711000, 13541852880936122716000, 5634773574179234856300000⟩,
  ⟨2395150880895178711000, 5634773574179232635800000, 13541852880936801427000⟩,
  ⟨2395150880895178711000, 4351684572939831241500000, 5634773574179232635800000⟩,
  ⟨2395150880895178711000, 13541852880936122716000, 4351684572939833461900000⟩,
  ⟨13001359147194163201000, 1390923912291039399300000, 876428525159974741720000⟩,
  ⟨13001359147194163201000, 7732647562548985442600000, 1390923912291039399300000⟩,
  ⟨13001359147194163201000, 876428525159975158050000, 7732647562548987663100000⟩,
  ⟨13001359147194163201000, 7732647562548985442600000, 876428525159974741720000⟩,
  ⟨13001359147194163201000, 1390923912291040509500000, 7732647562548987663100000⟩,
  ⟨13001359147194163201000, 876428525159972798830000, 1390923912291042452400000⟩,
  ⟨15369038310028759406000, 2801506543012279304400000, 784155789651995310810000⟩,
  ⟨15369038310028759406000, 6414337667335724413300000, 2801506543012280414700000⟩,
  ⟨15369038310028759406000, 784155789651994616920000, 6414337667335727744000000⟩,
  ⟨15369038310028759406000, 6414337667335725523500000, 784155789651995310810000⟩,
  ⟨15369038310028759406000, 2801506543012280414700000, 6414337667335726633800000⟩,
  ⟨15369038310028759406000, 784155789651993506690000, 2801506543012282080000000⟩,
  ⟨14939099251136487428000, 3463311874275595281200000, 627477726380917394390000⟩,
  ⟨14939099251136487428000, 5909210399343486352900000, 3463311874275595836400000⟩,
  ⟨14939099251136487428000, 627477726380917810720000, 5909210399343488573400000⟩,
  ⟨14939099251136487428000, 5909210399343486352900000, 627477726380917394390000⟩,
  ⟨14939099251136487428000, 3463311874275595836400000, 5909210399343488573400000⟩,
  ⟨14939099251136487428000, 627477726380915867830000, 3463311874275598056800000⟩,
  ⟨24979296124830832095000, 3811688378455702630500000, 2376623243088594461500000⟩,
  ⟨24979296124830832095000, 3811688378455702075300000, 3811688378455703740700000⟩,
  ⟨24979296124830832095000, 2376623243088593628900000, 3811688378455704295800000⟩,
  ⟨3462956748392793373700, 1142447933587817932000000, 71057304538391123302000⟩,
  ⟨3462956748392793373700, 8786494761873790970700000, 1142447933587817793200000⟩,
  ⟨3462956748392793373700, 71057304538392207505000, 8786494761873792080900000⟩,
  ⟨3462956748392793373700, 8786494761873790970700000, 71057304538391123302000⟩,
  ⟨3462956748392793373700, 1142447933587818487100000, 8786494761873792080900000⟩,
  ⟨3462956748392793373700, 71057304538388876836000, 1142447933587821262700000⟩,
  ⟨11320947479482943842000, 2601477827144039189900000, 408904742282701419430000⟩,
  ⟨11320947479482943842000, 6989617430573259460000000, 2601477827144039189900000⟩,
  ⟨11320947479482943842000, 408904742282701350040000, 6989617430573261680500000⟩,
  ⟨11320947479482943842000, 6989617430573259460000000, 408904742282701419430000⟩,
  ⟨11320947479482943842000, 2601477827144039189900000, 6989617430573261680500000⟩,
  ⟨11320947479482943842000, 408904742282699684710000, 2601477827144041965500000⟩,
  ⟨10841809686356963013000, 3385954503697221063000000, 324948830275603520180000⟩,
  ⟨10841809686356963013000, 6289096666027175208700000, 3385954503697221618100000⟩,
  ⟨10841809686356963013000, 324948830275603173230000, 6289096666027178539300000⟩,
  ⟨10841809686356963013000, 6289096666027175208700000, 324948830275603520180000⟩,
  ⟨10841809686356963013000, 3385954503697222173200000, 6289096666027175208700000⟩,
  ⟨10841809686356963013000, 324948830275602063010000, 3385954503697223838500000⟩,
  ⟨6301672412378120065700, 4405249471606920708100000, 87290442899361896795000⟩,
  ⟨6301672412378120065700, 5507460085493718349200000, 4405249471606921263200000⟩,
  ⟨6301672412378120065700, 87290442899361497808000, 5507460085493719459400000⟩,
  ⟨6301672412378120065700, 5507460085493717238900000, 87290442899361896795000⟩,
  ⟨6301672412378120065700, 4405249471606921263200000, 5507460085493718349200000⟩,
  ⟨6301672412378120065700, 87290442899360942697000, 4405249471606923483700000⟩,
  ⟨1509640027210191700600, 857234837407636202090000, 15747586640191973701000⟩,
  ⟨1509640027210191700600, 9127017575952171002400000, 857234837407636340870000⟩,
  ⟨1509640027210191700600, 15747586640192379193000, 9127017575952174333100000⟩,
  ⟨1509640027210191700600, 9127017575952172112600000, 15747586640191973701000⟩,
  ⟨1509640027210191700600, 857234837407636618420000, 9127017575952174333100000⟩,
  ⟨1509640027210191700600, 15747586640189256690000, 857234837407639532760000⟩,
  ⟨20389594514398654349000, 2007383675971185499300000, 2007383675971187442200000⟩,
  ⟨20389594514398654349000, 5985232648057626780900000, 2007383675971185776900000⟩,
  ⟨20389594514398654349000, 2007383675971186609600000, 5985232648057629001300000⟩,
  ⟨22808115137281583136000, 2859840866397785341700000, 2015322055357084141100000⟩,
  ⟨22808115137281583136000, 5124837078245130239700000, 2859840866397785896800000⟩,
  ⟨22808115137281583136000, 2015322055357083308500000, 5124837078245132460100000⟩,
  ⟨22808115137281583136000, 5124837078245130239700000, 2015322055357084141100000⟩,
  ⟨22808115137281583136000, 2859840866397784786600000, 5124837078245132460100000⟩,
  ⟨22808115137281583136000, 2015322055357082753300000, 2859840866397787007000000⟩,
  ⟨13215713819515362715000, 3022430648527079655200000, 514181635143590096140000⟩,
  ⟨13215713819515362715000, 6463387716329329624200000, 3022430648527080210300000⟩,
  ⟨13215713819515362715000, 514181635143590165530000, 6463387716329331844600000⟩,
  ⟨13215713819515362715000, 6463387716329330734400000, 514181635143590096140000⟩,
  ⟨13215713819515362715000, 3022430648527080765400000, 6463387716329330734400000⟩,
  ⟨13215713819515362715000, 514181635143588777750000, 3022430648527082985800000⟩,
  ⟨5657299646417223533100, 1145574257288858310800000, 190287488235584209550000⟩,
  ⟨5657299646417223533100, 8664138254475557410200000, 1145574257288858310800000⟩,
  ⟨5657299646417223533100, 190287488235585944270000, 8664138254475557410200000⟩,
  ⟨5657299646417223533100, 8664138254475557410200000, 190287488235584209550000⟩,
  ⟨5657299646417223533100, 1145574257288858310800000, 8664138254475559630700000⟩,
  ⟨5657299646417223533100, 190287488235581572770000, 1145574257288861502700000⟩,
  ⟨10544365941909401158000, 2122964300195307185700000, 407880592078401632560000⟩,
  ⟨10544365941909401158000, 7469155107726291875600000, 2122964300195307463200000⟩,
  ⟨10544365941909401158000, 407880592078401771340000, 7469155107726292985900000⟩,
  ⟨10544365941909401158000, 7469155107726290765400000, 407880592078401632560000⟩,
  ⟨10544365941909401158000, 2122964300195308573500000, 7469155107726291875600000⟩,
  ⟨10544365941909401158000, 407880592078400106000000, 2122964300195310238800000⟩,
  ⟨5858932741372461974100, 462782231758690904000000, 462782231758694165280000⟩,
  ⟨5858932741372461974100, 9074435536482614583800000, 462782231758690626440000⟩,
  ⟨5858932741372461974100, 462782231758694928560000, 9074435536482616804200000⟩,
  ⟨25420268789960241522000, 2971430888632479172500000, 2971430888632480837900000⟩,
  ⟨25420268789960241522000, 4057138222735040544700000, 2971430888632480282800000⟩,
  ⟨25420268789960241522000, 2971430888632479172500000, 4057138222735041654900000⟩,
  ⟨7804093505606637514600, 1465284297099019861200000, 285146118965765860140000⟩,
  ⟨7804093505606637514600, 8249569583935214556200000, 1465284297099019583700000⟩,
  ⟨7804093505606637514600, 285146118965767247920000, 8249569583935215666400000⟩,
  ⟨7804093505606637514600, 8249569583935213446000000, 285146118965765860140000⟩,
  ⟨7804093505606637514600, 1465284297099020416300000, 8249569583935215666400000⟩,
  ⟨7804093505606637514600, 285146118965763500920000, 1465284297099022914300000⟩,
  ⟨23154255562051811665000, 3740816461088269928600000, 1537086586116402919800000⟩,
  ⟨23154255562051811665000, 4722096952795328261800000, 3740816461088270483700000⟩,
  ⟨23154255562051811665000, 1537086586116402087100000, 4722096952795328817000000⟩,
  ⟨23154255562051811665000, 4722096952795327151600000, 1537086586116402919800000⟩,
  ⟨23154255562051811665000, 3740816461088270483700000, 4722096952795328261800000⟩,
  ⟨23154255562051811665000, 1537086586116401809600000, 3740816461088272149000000⟩,
  ⟨5824189122616983856100, 817068303997550704490000, 246053203840888995440000⟩,
  ⟨5824189122616983856100, 8936878492161560716400000, 817068303997550565710000⟩,
  ⟨5824189122616983856100, 246053203840890244440000, 8936878492161561826600000⟩,
  ⟨5824189122616983856100, 8936878492161560716400000, 246053203840888995440000⟩,
  ⟨5824189122616983856100, 817068303997551259600000, 8936878492161561826600000⟩,
  ⟨5824189122616983856100, 246053203840886636210000, 817068303997554035160000⟩,
  ⟨1454967198956266761700, 108421217690070140200000, 108421217690073280050000⟩,
  ⟨1454967198956266761700, 9783157564619855417500000, 108421217690070070820000⟩,
  ⟨1454967198956266761700, 108421217690074511710000, 9783157564619857637900000⟩,
  ⟨9539237935564041492200, 2941474788808446927400000, 235355019299825565790000⟩,
  ⟨9539237935564041492200, 6823170191891727576200000, 2941474788808446927400000⟩,
  ⟨9539237935564041492200, 235355019299825496400000, 6823170191891729796700000⟩,
  ⟨9539237935564041492200, 6823170191891727576200000, 235355019299825565790000⟩,
  ⟨9539237935564041492200, 2941474788808447482500000, 6823170191891728686400000⟩,
  ⟨9539237935564041492200, 235355019299824108630000, 2941474788808449702900000⟩,
  ⟨18103679665177228528000, 1750703694826515333100000, 1377167212601208001700000⟩,
  ⟨18103679665177228528000, 6872129092572275554900000, 1750703694826515610700000⟩,
  ⟨18103679665177228528000, 1377167212601208001700000, 6872129092572278885600000⟩,
  ⟨18103679665177228528000, 6872129092572276665200000, 1377167212601208001700000⟩,
  ⟨18103679665177228528000, 1750703694826515333100000, 6872129092572278885600000⟩,
  ⟨18103679665177228528000, 1377167212601206336400000, 1750703694826517831100000⟩,
  ⟨12339913193696132581000, 1028533816631290315200000, 1028533816631292674400000⟩,
  ⟨12339913193696132581000, 7942932366737417426700000, 1028533816631290454000000⟩,
  ⟨12339913193696132581000, 1028533816631292952000000, 7942932366737418536900000⟩,
  ⟨3023529583056674941400, 476205378057730083220000, 109753100892318270630000⟩,
  ⟨3023529583056674941400, 9414041521049950622700000, 476205378057730083220000⟩,
  ⟨3023529583056674941400, 109753100892319710450000, 9414041521049952843100000⟩,
  ⟨3023529583056674941400, 9414041521049951732900000, 109753100892318270630000⟩,
  ⟨3023529583056674941400, 476205378057730777110000, 9414041521049952843100000⟩,
  ⟨3023529583056674941400, 109753100892315408330000, 476205378057733275110000⟩,
  ⟨22357890144112865793000, 3175724815133268985600000, 1604656572027248484500000⟩,
  ⟨22357890144112865793000, 5219618612839482807400000, 3175724815133269540700000⟩,
  ⟨22357890144112865793000, 1604656572027247651800000, 5219618612839485027900000⟩,
  ⟨22357890144112865793000, 5219618612839482807400000, 1604656572027248484500000⟩,
  ⟨22357890144112865793000, 3175724815133268985600000, 5219618612839483917700000⟩,
  ⟨22357890144112865793000, 1604656572027247096700000, 3175724815133270650900000⟩,
  ⟨21608932779722824467000, 2881380539950774144500000, 1329492677376998000000000⟩,
  ⟨21608932779722824467000, 5789126782672228133100000, 2881380539950774699600000⟩,
  ⟨21608932779722824467000, 1329492677376997167300000, 5789126782672230353600000⟩,
  ⟨21608932779722824467000, 5789126782672228133100000, 1329492677376998000000000⟩,
  ⟨21608932779722824467000, 2881380539950774699600000, 5789126782672228133100000⟩,
  ⟨21608932779722824467000, 1329492677376996334600000, 2881380539950776920000000⟩,
  ⟨5917229840014332159900, 2679708893032961558600000, 87549512313114218054000⟩,
  ⟨5917229840014332159900, 7232741594653924188700000, 2679708893032961558600000⟩,
  ⟨5917229840014332159900, 87549512313114252748000, 7232741594653926409100000⟩,
  ⟨5917229840014332159900, 7232741594653924188700000, 87549512313114218054000⟩,
  ⟨5917229840014332159900, 2679708893032961558600000, 7232741594653926409100000⟩,
  ⟨5917229840014332159900, 87549512313112864970000, 2679708893032964334100000⟩,
  ⟨12237774459375782080000, 4841735634166948743000000, 316528731666102514100000⟩,
  ⟨12237774459375782080000, 4841735634166948743000000, 4841735634166949298100000⟩,
  ⟨12237774459375782080000, 316528731666102236540000, 4841735634166950963400000⟩,
  ⟨8549230596295638194200, 2393790592030268782300000, 207437619833565727030000⟩,
  ⟨8549230596295638194200, 7398771788136164762100000, 2393790592030269059900000⟩,
  ⟨8549230596295638194200, 207437619833566455620000, 7398771788136166982500000⟩,
  ⟨8549230596295638194200, 7398771788136165872300000, 207437619833565727030000⟩,
  ⟨8549230596295638194200, 2393790592030269337400000, 7398771788136166982500000⟩,
  ⟨8549230596295638194200, 207437619833564235170000, 2393790592030271557900000⟩,
  ⟨7630333887659846662400, 1918532715697030821600000, 197602896840749810150000⟩,
  ⟨7630333887659846662400, 7883864387462218292800000, 1918532715697031099100000⟩,
  ⟨7630333887659846662400, 197602896840750608120000, 7883864387462220513200000⟩,
  ⟨7630333887659846662400, 7883864387462219403000000, 197602896840749810150000⟩,
  ⟨7630333887659846662400, 1918532715697031099100000, 7883864387462220513200000⟩,
  ⟨7630333887659846662400, 197602896840747555010000, 1918532715697033874700000⟩,
  ⟨13764510347317954544000, 3873242425341849593000000, 429392857768670643810000⟩,
  ⟨13764510347317954544000, 5697364716889479208100000, 3873242425341850703200000⟩,
  ⟨13764510347317954544000, 429392857768670088700000, 5697364716889481428600000⟩,
  ⟨13764510347317954544000, 5697364716889479208100000, 429392857768670643810000⟩,
  ⟨13764510347317954544000, 3873242425341850148100000, 5697364716889480318300000⟩,
  ⟨13764510347317954544000, 429392857768669811150000, 3873242425341852368500000⟩,
  ⟨21816136183956239859000, 3535324158284108286800000, 1178924181582904490200000⟩,
  ⟨21816136183956239859000, 5285751660132986806700000, 3535324158284108842000000⟩,
  ⟨21816136183956239859000, 1178924181582904351400000, 5285751660132989027100000⟩,
  ⟨21816136183956239859000, 5285751660132986806700000, 1178924181582904490200000⟩,
  ⟨21816136183956239859000, 3535324158284107731700000, 5285751660132989027100000⟩,
  ⟨21816136183956239859000, 1178924181582902963600000, 3535324158284110507300000⟩,
  ⟨4831426781162767168800, 521774890148561099060000, 253747294625837269130000⟩,
  ⟨4831426781162767168800, 9224477815225601284900000, 521774890148560752110000⟩,
  ⟨4831426781162767168800, 253747294625839003860000, 9224477815225602395100000⟩,
  ⟨4831426781162767168800, 9224477815225601284900000, 253747294625837269130000⟩,
  ⟨4831426781162767168800, 521774890148561931720000, 9224477815225602395100000⟩,
  ⟨4831426781162767168800, 253747294625834909910000, 521774890148564568500000⟩,
  ⟨18907763340343234672000, 3237021161513139455600000, 935293820848460272230000⟩,
  ⟨18907763340343234672000, 5827685017638399855900000, 3237021161513140010700000⟩,
  ⟨18907763340343234672000, 935293820848460133450000, 5827685017638402076300000⟩,
  ⟨18907763340343234672000, 5827685017638400966100000, 935293820848460272230000⟩,
  ⟨18907763340343234672000, 3237021161513140010700000, 5827685017638400966100000⟩,
  ⟨18907763340343234672000, 935293820848458745680000, 3237021161513142231100000⟩,
  ⟨3017846563734654361800, 3720593606748486270600000, 19871034880731218951000⟩,
  ⟨3017846563734654361800, 6259535358370783564300000, 3720593606748486270600000⟩,
  ⟨3017846563734654361800, 19871034880730165106000, 6259535358370785784700000⟩,
  ⟨3017846563734654361800, 6259535358370782454100000, 19871034880731218951000⟩,
  ⟨3017846563734654361800, 3720593606748486270600000, 6259535358370783564300000⟩,
  ⟨3017846563734654361800, 19871034880730442662000, 3720593606748488491000000⟩,
  ⟨21275819804194820613000, 4136925346071049225400000, 1086901962935059168200000⟩,
  ⟨21275819804194820613000, 4776172690993891745100000, 4136925346071049780500000⟩,
  ⟨21275819804194820613000, 1086901962935059029500000, 4776172690993892855400000⟩,
  ⟨21275819804194820613000, 4776172690993891190000000, 1086901962935059168200000⟩,
  ⟨21275819804194820613000, 4136925346071049780500000, 4776172690993892300200000⟩,
  ⟨21275819804194820613000, 1086901962935058474400000, 4136925346071050890700000⟩,
  ⟨24245266612045804355000, 2508654436414371469200000, 1749023341509636231300000⟩,
  ⟨24245266612045804355000, 5742322222075991744500000, 2508654436414372024300000⟩,
  ⟨24245266612045804355000, 1749023341509636231300000, 5742322222075993964900000⟩,
  ⟨24245266612045804355000, 5742322222075991744500000, 1749023341509636231300000⟩,
  ⟨24245266612045804355000, 2508654436414372024300000, 5742322222075993964900000⟩,
  ⟨24245266612045804355000, 1749023341509634565900000, 2508654436414373689600000⟩,
  ⟨15127459076675808716000, 2368477035387835938400000, 669659133716484916700000⟩,
  ⟨15127459076675808716000, 6961863830895678173500000, 2368477035387835938400000⟩,
  ⟨15127459076675808716000, 669659133716485888140000, 6961863830895680394000000⟩,
  ⟨15127459076675808716000, 6961863830895679283700000, 669659133716484916700000⟩,
  ⟨15127459076675808716000, 2368477035387835938400000, 6961863830895680394000000⟩,
  ⟨15127459076675808716000, 669659133716482973810000, 2368477035387838436400000⟩,
  ⟨9151329554746004055200, 1099576830426482188000000, 409791337707322012030000⟩,
  ⟨9151329554746004055200, 8490631831866195522500000, 1099576830426482049200000⟩,
  ⟨9151329554746004055200, 409791337707323122250000, 8490631831866196632700000⟩,
  ⟨9151329554746004055200, 8490631831866196632700000, 409791337707322012030000⟩,
  ⟨9151329554746004055200, 1099576830426483575700000, 8490631831866196632700000⟩,
  ⟨9151329554746004055200, 409791337707319791580000, 1099576830426485241100000⟩,
  ⟨11556455726362425268000, 4297319028951815389500000, 244664150758457620010000⟩,
  ⟨11556455726362425268000, 5458016820289727233400000, 4297319028951816499700000⟩,
  ⟨11556455726362425268000, 244664150758457377140000, 5458016820289728343600000⟩,
  ⟨11556455726362425268000, 5458016820289727233400000, 244664150758457620010000⟩,
  ⟨11556455726362425268000, 4297319028951816499700000, 5458016820289727233400000⟩,
  ⟨11556455726362425268000, 244664150758456822030000, 4297319028951818165000000⟩,
  ⟨11488090641465537219000, 1437680374333724919700000, 566880883410084066010000⟩,
  ⟨11488090641465537219000, 7995438742256191222400000, 1437680374333724919700000⟩,
  ⟨11488090641465537219000, 566880883410085245620000, 7995438742256192332600000⟩,
  ⟨11488090641465537219000, 7995438742256191222400000, 566880883410084066010000⟩,
  ⟨11488090641465537219000, 1437680374333725752400000, 7995438742256192332600000⟩,
  ⟨11488090641465537219000, 566880883410082053730000, 1437680374333728250400000⟩,
  ⟨3868713007276602792500, 774106779986907661550000, 96524833615463691283000⟩,
  ⟨3868713007276602792500, 9129368386397628265500000, 774106779986907800330000⟩,
  ⟨3868713007276602792500, 96524833615465599479000, 9129368386397629375800000⟩,
  ⟨3868713007276602792500, 9129368386397629375800000, 96524833615463691283000⟩,
  ⟨3868713007276602792500, 774106779986908355440000, 9129368386397629375800000⟩,
  ⟨3868713007276602792500, 96524833615461505532000, 774106779986910992220000⟩,
  ⟨5545553953316353533100, 1557060056653468971300000, 110995676273211840020000⟩,
  ⟨5545553953316353533100, 8331944267073317922400000, 1557060056653469248800000⟩,
  ⟨5545553953316353533100, 110995676273212273700000, 8331944267073321253000000⟩,
  ⟨5545553953316353533100, 8331944267073320142800000, 110995676273211840020000⟩,
  ⟨5545553953316353533100, 1557060056653468693700000, 8331944267073321253000000⟩,
  ⟨5545553953316353533100, 110995676273209498140000, 1557060056653472024400000⟩,
  ⟨2958640035393750224900, 3128533024496512049400000, 19740717879364734315000⟩,
  ⟨2958640035393750224900, 6851726257624122240500000, 3128533024496512604500000⟩,
  ⟨2958640035393750224900, 19740717879365154985000, 6851726257624124460900000⟩,
  ⟨2958640035393750224900, 6851726257624123350700000, 19740717879364734315000⟩,
  ⟨2958640035393750224900, 3128533024496512604500000, 6851726257624124460900000⟩,
  ⟨2958640035393750224900, 19740717879363212095000, 3128533024496515380100000⟩,
  ⟨2331645391699127968100, 260902661381798156580000, 110588672805732885630000⟩,
  ⟨2331645391699127968100, 9628508665812467448600000, 260902661381797809640000⟩,
  ⟨2331645391699127968100, 110588672805734256070000, 9628508665812470779200000⟩,
  ⟨2331645391699127968100, 9628508665812468558800000, 110588672805732885630000⟩,
  ⟨2331645391699127968100, 260902661381799405580000, 9628508665812470779200000⟩,
  ⟨2331645391699127968100, 110588672805729849870000, 260902661381801001530000⟩,
  ⟨2530272571070865043700, 1656728608179915684900000, 24625444223661933398000⟩,
  ⟨2530272571070865043700, 8318645947596422507400000, 1656728608179915684900000⟩,
  ⟨2530272571070865043700, 24625444223662640297000, 8318645947596423617700000⟩,
  ⟨2530272571070865043700, 8318645947596421397200000, 24625444223661933398000⟩,
  ⟨2530272571070865043700, 1656728608179915962500000, 8318645947596423617700000⟩,
  ⟨2530272571070865043700, 24625444223659864740000, 1656728608179919293200000⟩,
  ⟨8417355883929228486200, 4932611955660526903400000, 134776088678945776820000⟩,
  ⟨8417355883929228486200, 4932611955660527458500000, 4932611955660528013600000⟩,
  ⟨8417355883929228486200, 134776088678945360490000, 4932611955660529123900000⟩,
  ⟨7731026217951237570300, 742257546763113590370000, 463950129826373944280000⟩,
  ⟨7731026217951237570300, 8793792323410511979600000, 742257546763113729150000⟩,
  ⟨7731026217951237570300, 463950129826374846330000, 8793792323410514200100000⟩,
  ⟨7731026217951237570300, 8793792323410513089900000, 463950129826373944280000⟩,
  ⟨7731026217951237570300, 742257546763114284260000, 8793792323410514200100000⟩,
  ⟨7731026217951237570300, 463950129826371307500000, 742257546763116921040000⟩,
  ⟨1119083862635312918300, 288339172370140305050000, 20785999248741984791000⟩,
  ⟨1119083862635312918300, 9690874828381117467300000, 288339172370140513210000⟩,
  ⟨1119083862635312918300, 20785999248743025625000, 9690874828381118577500000⟩,
  ⟨1119083862635312918300, 9690874828381117467300000, 20785999248741984791000⟩,
  ⟨1119083862635312918300, 288339172370141727520000, 9690874828381118577500000⟩,
  ⟨1119083862635312918300, 20785999248738983719000, 288339172370143705100000⟩,
  ⟨14780925919469867311000, 1868226606723150662300000, 683532967983220413060000⟩,
  ⟨14780925919469867311000, 7448240425293628508300000, 1868226606723150662300000⟩,
  ⟨14780925919469867311000, 683532967983221384500000, 7448240425293629618500000⟩,
  ⟨14780925919469867311000, 7448240425293628508300000, 683532967983220413060000⟩,
  ⟨14780925919469867311000, 1868226606723151772500000, 7448240425293629618500000⟩,
  ⟨14780925919469867311000, 683532967983218192610000, 1868226606723153160300000⟩,
  ⟨7145209245851085171800, 3270839281856873226300000, 106763043029804560040000⟩,
  ⟨7145209245851085171800, 6622397675113321780000000, 3270839281856874336500000⟩,
  ⟨7145209245851085171800, 106763043029804993720000, 6622397675113322890200000⟩,
  ⟨7145209245851085171800, 6622397675113321780000000, 106763043029804560040000⟩,
  ⟨7145209245851085171800, 3270839281856874891700000, 6622397675113321780000000⟩,
  ⟨7145209245851085171800, 106763043029802773280000, 3270839281856876557000000⟩,
  ⟨10729346742087936088000, 1038911034338267785900000, 691692834636133124790000⟩,
  ⟨10729346742087936088000, 8269396131025599228100000, 1038911034338268063500000⟩,
  ⟨10729346742087936088000, 691692834636133957460000, 8269396131025600338300000⟩,
  ⟨10729346742087936088000, 8269396131025599228100000, 691692834636133124790000⟩,
  ⟨10729346742087936088000, 1038911034338268479800000, 8269396131025600338300000⟩,
  ⟨10729346742087936088000, 691692834636130904350000, 1038911034338270700200000⟩,
  ⟨17923837097284971501000, 2155342882429546191900000, 1006688094346437217800000⟩,
  ⟨17923837097284971501000, 6837969023224015341400000, 2155342882429546469400000⟩,
  ⟨17923837097284971501000, 1006688094346437356600000, 6837969023224018672000000⟩,
  ⟨17923837097284971501000, 6837969023224016451600000, 1006688094346437217800000⟩,
  ⟨17923837097284971501000, 2155342882429545636700000, 6837969023224018672000000⟩,
  ⟨17923837097284971501000, 1006688094346435274900000, 2155342882429548134700000⟩,
  ⟨26827112703014031718000, 4057324719755224240500000, 1885350560489550964000000⟩,
  ⟨26827112703014031718000, 4057324719755224240500000, 4057324719755225905800000⟩,
  ⟨26827112703014031718000, 1885350560489549853700000, 4057324719755226460900000⟩,
  ⟨27263678891136160047000, 3431516130273899456400000, 2012179375284442739400000⟩,
  ⟨27263678891136160047000, 4556304494441658636800000, 3431516130273900011500000⟩,
  ⟨27263678891136160047000, 2012179375284441906800000, 4556304494441659747000000⟩,
  ⟨27263678891136160047000, 4556304494441658081700000, 2012179375284442739400000⟩,
  ⟨27263678891136160047000, 3431516130273899456400000, 4556304494441658636800000⟩,
  ⟨27263678891136160047000, 2012179375284441351600000, 3431516130273901676900000⟩,
  ⟨21908328878285812484000, 2224087587233254392800000, 1434532484926368811600000⟩,
  ⟨21908328878285812484000, 6341379927840377073200000, 2224087587233254670300000⟩,
  ⟨21908328878285812484000, 1434532484926368534100000, 6341379927840379293600000⟩,
  ⟨21908328878285812484000, 6341379927840377073200000, 1434532484926368811600000⟩,
  ⟨21908328878285812484000, 2224087587233253837700000, 6341379927840379293600000⟩,
  ⟨21908328878285812484000, 1434532484926366868700000, 2224087587233256335700000⟩,
  ⟨1535872679822280204600, 534809769143942265180000, 21251605376943244648000⟩,
  ⟨1535872679822280204600, 9443938625479113557800000, 534809769143942057010000⟩,
  ⟨1535872679822280204600, 21251605376945703618000, 9443938625479114668000000⟩,
  ⟨1535872679822280204600, 9443938625479114668000000, 21251605376943244648000⟩,
  ⟨1535872679822280204600, 534809769143944069290000, 9443938625479114668000000⟩,
  ⟨1535872679822280204600, 21251605376940638226000, 534809769143945873400000⟩,
  ⟨17496340158808336689000, 1304216449251314469100000, 1304216449251316967100000⟩,
  ⟨17496340158808336689000, 7391567101497368286200000, 1304216449251314469100000⟩,
  ⟨17496340158808336689000, 1304216449251317522200000, 7391567101497369396400000⟩,
  ⟨16190885082294590325000, 4387889688450269387600000, 514225024494020452330000⟩,
  ⟨16190885082294590325000, 5097885287055710090700000, 4387889688450269942700000⟩,
  ⟨16190885082294590325000, 514225024494019966600000, 5097885287055712311100000⟩,
  ⟨16190885082294590325000, 5097885287055710090700000, 514225024494020452330000⟩,
  ⟨16190885082294590325000, 4387889688450270497800000, 5097885287055710090700000⟩,
  ⟨16190885082294590325000, 514225024494019689050000, 4387889688450272163100000⟩,
  ⟨19800098957543778126000, 4614348056302962630700000, 771303887394075154970000⟩,
  ⟨19800098957543778126000, 4614348056302962630700000, 4614348056302963185800000⟩,
  ⟨19800098957543778126000, 771303887394074461080000, 4614348056302964296000000⟩,
  ⟨4159754444519079088500, 275739602431112201810000, 275739602431115116140000⟩,
  ⟨4159754444519079088500, 9448520795137772543300000, 275739602431111889560000⟩,
  ⟨4159754444519079088500, 275739602431115948810000, 9448520795137774763700000⟩,
  ⟨26822045354474625088000, 2318424453754739378300000, 2318424453754741321200000⟩,
  ⟨26822045354474625088000, 5363151092490520133200000, 2318424453754739933400000⟩,
  ⟨26822045354474625088000, 2318424453754740488500000, 5363151092490521243400000⟩,
  ⟨30633868037770310179000, 3517217766277714319200000, 2965564467444571361600000⟩,
  ⟨30633868037770310179000, 3517217766277713764100000, 3517217766277715429400000⟩,
  ⟨30633868037770310179000, 2965564467444570251300000, 3517217766277715984600000⟩,
  ⟨323057149542252543910, 22124213099817542465000, 22124213099820608588000⟩,
  ⟨323057149542252543910, 9955751573800362130800000, 22124213099817403687000⟩,
  ⟨323057149542252543910, 22124213099821710138000, 9955751573800363241100000⟩,
  ⟨20526914294637763243000, 3919321013755558413800000, 781526329255782525870000⟩,
  ⟨20526914294637763243000, 5299152656988659337900000, 3919321013755559524000000⟩,
  ⟨20526914294637763243000, 781526329255781693210000, 5299152656988661558300000⟩,
  ⟨20526914294637763243000, 5299152656988659337900000, 781526329255782525870000⟩,
  ⟨20526914294637763243000, 3919321013755558413800000, 5299152656988660448100000⟩,
  ⟨20526914294637763243000, 781526329255781415650000, 3919321013755560634300000⟩,
  ⟨5341793661710525411400, 2110821798970345664100000, 64969244459217980261000⟩,
  ⟨5341793661710525411400, 7824208956570436468400000, 2110821798970345941600000⟩,
  ⟨5341793661710525411400, 64969244459218700172000, 7824208956570437578600000⟩,
  ⟨5341793661710525411400, 7824208956570435358200000, 64969244459217980261000⟩,
  ⟨5341793661710525411400, 2110821798970345941600000, 7824208956570437578600000⟩,
  ⟨5341793661710525411400, 64969244459216202170000, 2110821798970348717200000⟩,
  ⟨711599458074916257040, 117098573109517579970000, 20903064191528592311000⟩,
  ⟨711599458074916257040, 9861998362698953801700000, 117098573109517510580000⟩,
  ⟨711599458074916257040, 20903064191530318361000, 9861998362698954911900000⟩,
  ⟨711599458074916257040, 9861998362698953801700000, 20903064191528592311000⟩,
  ⟨711599458074916257040, 117098573109518100390000, 9861998362698954911900000⟩,
  ⟨711599458074916257040, 20903064191525955531000, 117098573109520719820000⟩,
  ⟨3942775827266348015100, 4987895646915128100600000, 24208706169743300120000⟩,
  ⟨3942775827266348015100, 4987895646915128655700000, 4987895646915129210800000⟩,
  ⟨3942775827266348015100, 24208706169742411074000, 4987895646915130876100000⟩,
  ⟨802792352761153981280, 2063833537599898404500000, 1398635181475325016700⟩,
  ⟨802792352761153981280, 7934767827218625058100000, 2063833537599898682000000⟩,
  ⟨802792352761153981280, 1398635181475427202700, 7934767827218628388800000⟩,
  ⟨802792352761153981280, 7934767827218626168300000, 1398635181475325016700⟩,
  ⟨802792352761153981280, 2063833537599897849400000, 7934767827218628388800000⟩,
  ⟨802792352761153981280, 1398635181473484312400, 2063833537599901180000000⟩]

end Verif
