import Verif.Model.TriaTabBase

/-! Generated by tools/quad_tables.py from /repo/lib/lf/quad/quad_rules_tria.cc. -/

namespace Verif

/-- `HardcodedQuadRule<kTria, 48>()`; /repo/lib/lf/quad/quad_rules_tria.cc:20687-21962. -/
def triaTab48 : List TabRow := [
  ⟨21825693768913693310000, 3477244587108094253700000, 3045510825783811492700000⟩,
  ⟨21825693768913693310000, 3477244587108094808800000, 3477244587108095363900000⟩,
  ⟨21825693768913693310000, 3045510825783810382500000, 3477244587108095919000000⟩,
  ⟨18599657061483545160000, 3695672915901662136700000, 2157006441696169007900000⟩,
  ⟨18599657061483545160000, 4147320642402169133000000, 3695672915901662691800000⟩,
  ⟨18599657061483545160000, 2157006441696167897700000, 4147320642402170798300000⟩,
  ⟨18599657061483545160000, 4147320642402169688100000, 2157006441696169007900000⟩,
  ⟨18599657061483545160000, 3695672915901662136700000, 4147320642402170243200000⟩,
  ⟨18599657061483545160000, 2157006441696167897700000, 3695672915901663802000000⟩,
  ⟨15163054722851024292000, 3084818979933622307100000, 1083014999220039825700000⟩,
  ⟨15163054722851024292000, 5832166020846337728400000, 3084818979933622862300000⟩,
  ⟨15163054722851024292000, 1083014999220039409300000, 5832166020846339948800000⟩,
  ⟨15163054722851024292000, 5832166020846337728400000, 1083014999220039825700000⟩,
  ⟨15163054722851024292000, 3084818979933622307100000, 5832166020846338838600000⟩,
  ⟨15163054722851024292000, 1083014999220038576700000, 3084818979933623972500000⟩,
  ⟨9235054324167451264900, 3196427292245513363000000, 346959527711364415500000⟩,
  ⟨9235054324167451264900, 6456613180043122568500000, 3196427292245513918100000⟩,
  ⟨9235054324167451264900, 346959527711364623670000, 6456613180043124788900000⟩,
  ⟨9235054324167451264900, 6456613180043122568500000, 346959527711364415500000⟩,
  ⟨9235054324167451264900, 3196427292245513918100000, 6456613180043122568500000⟩,
  ⟨9235054324167451264900, 346959527711363235890000, 3196427292245515583400000⟩,
  ⟨19845875226512919333000, 3734312712553220503500000, 2531374574893558993000000⟩,
  ⟨19845875226512919333000, 3734312712553220503500000, 3734312712553222168800000⟩,
  ⟨19845875226512919333000, 2531374574893557882800000, 3734312712553222168800000⟩,
  ⟨118864540424328977640, 9962559654771518946600000, 13460639309494980363000⟩,
  ⟨118864540424328977640, 23979705918986682356000, 9962559654771520056800000⟩,
  ⟨118864540424328977640, 13460639309492577771000, 23979705918989713785000⟩,
  ⟨118864540424328977640, 23979705918986101224000, 13460639309494980363000⟩,
  ⟨118864540424328977640, 9962559654771518946600000, 23979705918985871373000⟩,
  ⟨118864540424328977640, 13460639309496591487000, 9962559654771520056800000⟩,
  ⟨7724837263204835987500, 3280848178088313082900000, 191707840803216067460000⟩,
  ⟨7724837263204835987500, 6527443981108470572000000, 3280848178088313082900000⟩,
  ⟨7724837263204835987500, 191707840803216345020000, 6527443981108472792500000⟩,
  ⟨7724837263204835987500, 6527443981108470572000000, 191707840803216067460000⟩,
  ⟨7724837263204835987500, 3280848178088313638100000, 6527443981108471682300000⟩,
  ⟨7724837263204835987500, 191707840803214957240000, 3280848178088315303400000⟩,
  ⟨25159434913496966923000, 3198129082727194649700000, 2763615653108097425200000⟩,
  ⟨25159434913496966923000, 4038255264164707925000000, 3198129082727195760000000⟩,
  ⟨25159434913496966923000, 2763615653108096315000000, 4038255264164709590300000⟩,
  ⟨25159434913496966923000, 4038255264164707369900000, 2763615653108097425200000⟩,
  ⟨25159434913496966923000, 3198129082727194649700000, 4038255264164709590300000⟩,
  ⟨25159434913496966923000, 2763615653108096315000000, 3198129082727195760000000⟩,
  ⟨1943678834004917868400, 1589266013618200190600000, 16411683438174631388000⟩,
  ⟨1943678834004917868400, 8394322302943624247700000, 1589266013618199913100000⟩,
  ⟨1943678834004917868400, 16411683438175006522000, 8394322302943627578400000⟩,
  ⟨1943678834004917868400, 8394322302943625357900000, 16411683438174631388000⟩,
  ⟨1943678834004917868400, 1589266013618199635500000, 8394322302943627578400000⟩,
  ⟨1943678834004917868400, 16411683438172786076000, 1589266013618203521300000⟩,
  ⟨11464846676597329703000, 1962759771972356071000000, 533231934213235156390000⟩,
  ⟨11464846676597329703000, 7504008293814409258400000, 1962759771972356071000000⟩,
  ⟨11464846676597329703000, 533231934213235780890000, 7504008293814409258400000⟩,
  ⟨11464846676597329703000, 7504008293814409258400000, 533231934213235156390000⟩,
  ⟨11464846676597329703000, 1962759771972357181200000, 7504008293814409258400000⟩,
  ⟨11464846676597329703000, 533231934213233421670000, 1962759771972359124100000⟩,
  ⟨9110572683922553080500, 4893390535628532322900000, 213218928742935805170000⟩,
  ⟨9110572683922553080500, 4893390535628532322900000, 4893390535628532878000000⟩,
  ⟨9110572683922553080500, 213218928742935631690000, 4893390535628533988300000⟩,
  ⟨16295040978854741839000, 2933421845901817426300000, 829288364011383782870000⟩,
  ⟨16295040978854741839000, 6237289790086798513300000, 2933421845901817981400000⟩,
  ⟨16295040978854741839000, 829288364011384615540000, 6237289790086799623500000⟩,
  ⟨16295040978854741839000, 6237289790086798513300000, 829288364011383782870000⟩,
  ⟨16295040978854741839000, 2933421845901817981400000, 6237289790086799623500000⟩,
  ⟨16295040978854741839000, 829288364011382395090000, 2933421845901819091700000⟩,
  ⟨6057236250324898093500, 484109248251398810450000, 484109248251401655390000⟩,
  ⟨6057236250324898093500, 9031781503497199326000000, 484109248251398810450000⟩,
  ⟨6057236250324898093500, 484109248251403112560000, 9031781503497200436200000⟩,
  ⟨9654772448135350709800, 801595487479755675060000, 801595487479758728180000⟩,
  ⟨9654772448135350709800, 8396809025040484764100000, 801595487479755813840000⟩,
  ⟨9654772448135350709800, 801595487479760393510000, 8396809025040485874300000⟩,
  ⟨6497171967007592642900, 1247273258813975660400000, 233190171491815048670000⟩,
  ⟨6497171967007592642900, 8519536569694208250100000, 1247273258813975799200000⟩,
  ⟨6497171967007592642900, 233190171491815534390000, 8519536569694211580700000⟩,
  ⟨6497171967007592642900, 8519536569694209360300000, 233190171491815048670000⟩,
  ⟨6497171967007592642900, 1247273258813976215500000, 8519536569694211580700000⟩,
  ⟨6497171967007592642900, 233190171491812203720000, 1247273258813978991100000⟩,
  ⟨20221158995707548024000, 3115932459432795842400000, 1387130939593855805100000⟩,
  ⟨20221158995707548024000, 5496936600973347797300000, 3115932459432796397500000⟩,
  ⟨20221158995707548024000, 1387130939593855805100000, 5496936600973350017800000⟩,
  ⟨20221158995707548024000, 5496936600973347797300000, 1387130939593855805100000⟩,
  ⟨20221158995707548024000, 3115932459432795287300000, 5496936600973350017800000⟩,
  ⟨20221158995707548024000, 1387130939593854417300000, 3115932459432798062900000⟩,
  ⟨13200121878205368659000, 4790902659592135015600000, 418194680815729760700000⟩,
  ⟨13200121878205368659000, 4790902659592135570700000, 4790902659592135570700000⟩,
  ⟨13200121878205368659000, 418194680815729136200000, 4790902659592137236000000⟩,
  ⟨16420960432030349066000, 4666424153484346470900000, 667151693031307335690000⟩,
  ⟨16420960432030349066000, 4666424153484346470900000, 4666424153484347026000000⟩,
  ⟨16420960432030349066000, 667151693031306780580000, 4666424153484348136300000⟩,
  ⟨4322395535472597937800, 1105414410318807522100000, 105406394081225263100000⟩,
  ⟨4322395535472597937800, 8789179195599966520900000, 1105414410318807244500000⟩,
  ⟨4322395535472597937800, 105406394081226650880000, 8789179195599967631100000⟩,
  ⟨4322395535472597937800, 8789179195599967631100000, 105406394081225263100000⟩,
  ⟨4322395535472597937800, 1105414410318809048700000, 8789179195599967631100000⟩,
  ⟨4322395535472597937800, 105406394081222279380000, 1105414410318811130300000⟩,
  ⟨6329857182378711673600, 2974171962759172283000000, 103472505675079231440000⟩,
  ⟨6329857182378711673600, 6922355531565748121300000, 2974171962759172838100000⟩,
  ⟨6329857182378711673600, 103472505675079595730000, 6922355531565749231500000⟩,
  ⟨6329857182378711673600, 6922355531565748121300000, 103472505675079231440000⟩,
  ⟨6329857182378711673600, 2974171962759173393200000, 6922355531565749231500000⟩,
  ⟨6329857182378711673600, 103472505675077930400000, 2974171962759175613700000⟩,
  ⟨13712942976207562803000, 2940680586522785300300000, 537818816587767034590000⟩,
  ⟨13712942976207562803000, 6521500596889447942700000, 2940680586522785855400000⟩,
  ⟨13712942976207562803000, 537818816587767312140000, 6521500596889449052900000⟩,
  ⟨13712942976207562803000, 6521500596889447942700000, 537818816587767034590000⟩,
  ⟨13712942976207562803000, 2940680586522785855400000, 6521500596889449052900000⟩,
  ⟨13712942976207562803000, 537818816587765646810000, 2940680586522788075900000⟩,
  ⟨10577037768328726667000, 1114012176063108317000000, 697603580204464307490000⟩,
  ⟨10577037768328726667000, 8188384243732427236800000, 1114012176063108039400000⟩,
  ⟨10577037768328726667000, 697603580204465001380000, 8188384243732429457200000⟩,
  ⟨10577037768328726667000, 8188384243732427236800000, 697603580204464307490000⟩,
  ⟨10577037768328726667000, 1114012176063108317000000, 8188384243732429457200000⟩,
  ⟨10577037768328726667000, 697603580204462364600000, 1114012176063111370100000⟩,
  ⟨8115772636428425414900, 4437434538636292891100000, 155023027792510516290000⟩,
  ⟨8115772636428425414900, 5407542433571197459900000, 4437434538636293446200000⟩,
  ⟨8115772636428425414900, 155023027792509093810000, 5407542433571199680400000⟩,
  ⟨8115772636428425414900, 5407542433571196349700000, 155023027792510516290000⟩,
  ⟨8115772636428425414900, 4437434538636293446200000, 5407542433571197459900000⟩,
  ⟨8115772636428425414900, 155023027792509093810000, 4437434538636295666700000⟩,
  ⟨12706368667026474856000, 3676357119294024755600000, 396225072588169413560000⟩,
  ⟨12706368667026474856000, 5927417808117805275700000, 3676357119294025310700000⟩,
  ⟨12706368667026474856000, 396225072588169968670000, 5927417808117806385900000⟩,
  ⟨12706368667026474856000, 5927417808117805275700000, 396225072588169413560000⟩,
  ⟨12706368667026474856000, 3676357119294025310700000, 5927417808117806385900000⟩,
  ⟨12706368667026474856000, 396225072588168025780000, 3676357119294027531200000⟩,
  ⟨3113177360560864977100, 483834188936242623470000, 118107009236640553280000⟩,
  ⟨3113177360560864977100, 9398058801827116060000000, 483834188936242345910000⟩,
  ⟨3113177360560864977100, 118107009236642634950000, 9398058801827117170200000⟩,
  ⟨3113177360560864977100, 9398058801827116060000000, 118107009236640553280000⟩,
  ⟨3113177360560864977100, 483834188936243525530000, 9398058801827117170200000⟩,
  ⟨3113177360560864977100, 118107009236638228760000, 483834188936246231690000⟩,
  ⟨13209201899881362844000, 4261985460348483023600000, 352878923463722377060000⟩,
  ⟨13209201899881362844000, 5385135616187795015700000, 4261985460348483023600000⟩,
  ⟨13209201899881362844000, 352878923463721960730000, 5385135616187797236200000⟩,
  ⟨13209201899881362844000, 5385135616187795015700000, 352878923463722377060000⟩,
  ⟨13209201899881362844000, 4261985460348482468400000, 5385135616187796125900000⟩,
  ⟨13209201899881362844000, 352878923463721128060000, 4261985460348484688900000⟩,
  ⟨16326585513786941607000, 3464037075083425953900000, 647150930019751435830000⟩,
  ⟨16326585513786941607000, 5888811994896823165400000, 3464037075083425953900000⟩,
  ⟨16326585513786941607000, 647150930019750880720000, 5888811994896825385800000⟩,
  ⟨16326585513786941607000, 5888811994896823165400000, 647150930019751435830000⟩,
  ⟨16326585513786941607000, 3464037075083425398800000, 5888811994896824275600000⟩,
  ⟨16326585513786941607000, 647150930019749770490000, 3464037075083428174300000⟩,
  ⟨3827572929612091195100, 761686440792014585190000, 104225715676421054610000⟩,
  ⟨3827572929612091195100, 9134087843531564221400000, 761686440792014307630000⟩,
  ⟨3827572929612091195100, 104225715676421470950000, 9134087843531567552100000⟩,
  ⟨3827572929612091195100, 9134087843531565331600000, 104225715676421054610000⟩,
  ⟨3827572929612091195100, 761686440792014862740000, 9134087843531567552100000⟩,
  ⟨3827572929612091195100, 104225715676418764780000, 761686440792017499520000⟩,
  ⟨25820680472357629073000, 3198558059892069871400000, 2271049175306689704700000⟩,
  ⟨25820680472357629073000, 4530392764801239868800000, 3198558059892070981600000⟩,
  ⟨25820680472357629073000, 2271049175306689149600000, 4530392764801242089200000⟩,
  ⟨25820680472357629073000, 4530392764801240979000000, 2271049175306689704700000⟩,
  ⟨25820680472357629073000, 3198558059892069871400000, 4530392764801242089200000⟩,
  ⟨25820680472357629073000, 2271049175306688594500000, 3198558059892071536700000⟩,
  ⟨9277194906379181236300, 1149767499763278272300000, 431548880805705872830000⟩,
  ⟨9277194906379181236300, 8418683619431015507900000, 1149767499763278272300000⟩,
  ⟨9277194906379181236300, 431548880805706636110000, 8418683619431017728400000⟩,
  ⟨9277194906379181236300, 8418683619431016618200000, 431548880805705872830000⟩,
  ⟨9277194906379181236300, 1149767499763278966200000, 8418683619431017728400000⟩,
  ⟨9277194906379181236300, 431548880805703166660000, 1149767499763281464200000⟩,
  ⟨11399050056811561513000, 1553411874863349639900000, 489749482183904280560000⟩,
  ⟨11399050056811561513000, 7956838642952746010200000, 1553411874863349639900000⟩,
  ⟨11399050056811561513000, 489749482183904905060000, 7956838642952748230600000⟩,
  ⟨11399050056811561513000, 7956838642952746010200000, 489749482183904280560000⟩,
  ⟨11399050056811561513000, 1553411874863349639900000, 7956838642952748230600000⟩,
  ⟨11399050056811561513000, 489749482183902129510000, 1553411874863352970500000⟩,
  ⟨5133973085980451933600, 1536641394780652314400000, 94545488420266759338000⟩,
  ⟨5133973085980451933600, 8368813116799080908900000, 1536641394780652036800000⟩,
  ⟨5133973085980451933600, 94545488420268442020000, 8368813116799082019200000⟩,
  ⟨5133973085980451933600, 8368813116799082019200000, 94545488420266759338000⟩,
  ⟨5133973085980451933600, 1536641394780652869500000, 8368813116799082019200000⟩,
  ⟨5133973085980451933600, 94545488420264556240000, 1536641394780655645000000⟩,
  ⟨1664215605633112484000, 798538207718234027690000, 18943058791126433493000⟩,
  ⟨1664215605633112484000, 9182518733490638851400000, 798538207718234305240000⟩,
  ⟨1664215605633112484000, 18943058791127675988000, 9182518733490641071900000⟩,
  ⟨1664215605633112484000, 9182518733490639961700000, 18943058791126433493000⟩,
  ⟨1664215605633112484000, 798538207718234582800000, 9182518733490641071900000⟩,
  ⟨1664215605633112484000, 18943058791123998374000, 798538207718237497130000⟩,
  ⟨1614724792174078503300, 117045744671133034740000, 117045744671136174590000⟩,
  ⟨1614724792174078503300, 9765908510657730357000000, 117045744671132965350000⟩,
  ⟨1614724792174078503300, 117045744671137041950000, 9765908510657732577400000⟩,
  ⟨6078746557258590289800, 1978601121285483710500000, 120283224036929169140000⟩,
  ⟨6078746557258590289800, 7901115654677587363300000, 1978601121285483988000000⟩,
  ⟨6078746557258590289800, 120283224036928371170000, 7901115654677590693900000⟩,
  ⟨6078746557258590289800, 7901115654677586253000000, 120283224036929169140000⟩,
  ⟨6078746557258590289800, 1978601121285484265600000, 7901115654677587363300000⟩,
  ⟨6078746557258590289800, 120283224036927538500000, 1978601121285486486000000⟩,
  ⟨2946557864478388218500, 3169153803807818192700000, 19044677779363164589000⟩,
  ⟨2946557864478388218500, 6811801518412818889900000, 3169153803807818747800000⟩,
  ⟨2946557864478388218500, 19044677779363472503000, 6811801518412820000100000⟩,
  ⟨2946557864478388218500, 6811801518412818889900000, 19044677779363164589000⟩,
  ⟨2946557864478388218500, 3169153803807818747800000, 6811801518412820000100000⟩,
  ⟨2946557864478388218500, 19044677779362084724000, 3169153803807820968300000⟩,
  ⟨8671329022474306893300, 1645639771634134773700000, 262052237923564648740000⟩,
  ⟨8671329022474306893300, 8092307990442300091900000, 1645639771634134496100000⟩,
  ⟨8671329022474306893300, 262052237923565689570000, 8092307990442302312300000⟩,
  ⟨8671329022474306893300, 8092307990442301202100000, 262052237923564648740000⟩,
  ⟨8671329022474306893300, 1645639771634135328800000, 8092307990442302312300000⟩,
  ⟨8671329022474306893300, 262052237923561665010000, 1645639771634137826800000⟩,
  ⟨20249375378802308978000, 3611298359799379187300000, 944709215240264049700000⟩,
  ⟨20249375378802308978000, 5443992424960356624200000, 3611298359799379742400000⟩,
  ⟨20249375378802308978000, 944709215240263633360000, 5443992424960358844600000⟩,
  ⟨20249375378802308978000, 5443992424960356624200000, 944709215240264049700000⟩,
  ⟨20249375378802308978000, 3611298359799379742400000, 5443992424960357734400000⟩,
  ⟨20249375378802308978000, 944709215240262800690000, 3611298359799381407800000⟩,
  ⟨21371161488564229501000, 4198259774542293931700000, 963233490337837422460000⟩,
  ⟨21371161488564229501000, 4838506735119868507100000, 4198259774542294486800000⟩,
  ⟨21371161488564229501000, 963233490337836451010000, 4838506735119870727500000⟩,
  ⟨21371161488564229501000, 4838506735119869062200000, 963233490337837422460000⟩,
  ⟨21371161488564229501000, 4198259774542294486800000, 4838506735119869617300000⟩,
  ⟨21371161488564229501000, 963233490337836173460000, 4198259774542296152200000⟩,
  ⟨14167542737901226216000, 2431752245746630902700000, 534903172634274073900000⟩,
  ⟨14167542737901226216000, 7033344581619095370300000, 2431752245746630902700000⟩,
  ⟨14167542737901226216000, 534903172634274559630000, 7033344581619096480600000⟩,
  ⟨14167542737901226216000, 7033344581619095370300000, 534903172634274073900000⟩,
  ⟨14167542737901226216000, 2431752245746631180300000, 7033344581619096480600000⟩,
  ⟨14167542737901226216000, 534903172634271645290000, 2431752245746633678300000⟩,
  ⟨13719062729418713548000, 1459832231136434510500000, 795244786008371812300000⟩,
  ⟨13719062729418713548000, 7744922982855192428200000, 1459832231136434788100000⟩,
  ⟨13719062729418713548000, 795244786008372228640000, 7744922982855195758800000⟩,
  ⟨13719062729418713548000, 7744922982855194648600000, 795244786008371812300000⟩,
  ⟨13719062729418713548000, 1459832231136434233000000, 7744922982855195758800000⟩,
  ⟨13719062729418713548000, 795244786008369869410000, 1459832231136437841200000⟩,
  ⟨2365107281775260866400, 272392832679802729400000, 110307547814719290880000⟩,
  ⟨2365107281775260866400, 9617299619505478292000000, 272392832679802347760000⟩,
  ⟨2365107281775260866400, 110307547814720852130000, 9617299619505479402200000⟩,
  ⟨2365107281775260866400, 9617299619505478292000000, 110307547814719290880000⟩,
  ⟨2365107281775260866400, 272392832679803076350000, 9617299619505479402200000⟩,
  ⟨2365107281775260866400, 110307547814716532670000, 272392832679806164150000⟩,
  ⟨6866588720805030104900, 2453137089647784152600000, 121862329639788515710000⟩,
  ⟨6866588720805030104900, 7425000580712427522600000, 2453137089647784152600000⟩,
  ⟨6866588720805030104900, 121862329639788602440000, 7425000580712429743000000⟩,
  ⟨6866588720805030104900, 7425000580712427522600000, 121862329639788515710000⟩,
  ⟨6866588720805030104900, 2453137089647783875000000, 7425000580712429743000000⟩,
  ⟨6866588720805030104900, 121862329639786104440000, 2453137089647787205700000⟩,
  ⟨27155231519975539349000, 2678465137111687988100000, 2678465137111689653400000⟩,
  ⟨27155231519975539349000, 4643069725776621803300000, 2678465137111689098300000⟩,
  ⟨27155231519975539349000, 2678465137111689098300000, 4643069725776624023800000⟩,
  ⟨2116504957303069506700, 1165542190734528971200000, 21132182624776095665000⟩,
  ⟨2116504957303069506700, 8813325626640694521200000, 1165542190734529109900000⟩,
  ⟨2116504957303069506700, 21132182624776785218000, 8813325626640696741600000⟩,
  ⟨2116504957303069506700, 8813325626640694521200000, 21132182624776095665000⟩,
  ⟨2116504957303069506700, 1165542190734529248700000, 8813325626640696741600000⟩,
  ⟨2116504957303069506700, 21132182624773732105000, 1165542190734532579400000⟩,
  ⟨5332305935819222101800, 535856828700446083390000, 272189906580712175090000⟩,
  ⟨5332305935819222101800, 9191953264718841776200000, 535856828700445736450000⟩,
  ⟨5332305935819222101800, 272189906580713181230000, 9191953264718843996700000⟩,
  ⟨5332305935819222101800, 9191953264718840666000000, 272189906580712175090000⟩,
  ⟨5332305935819222101800, 535856828700446152780000, 9191953264718843996700000⟩,
  ⟨5332305935819222101800, 272189906580709399530000, 535856828700449275280000⟩,
  ⟨6912005366558516975300, 851355181500168534110000, 262562590124720725280000⟩,
  ⟨6912005366558516975300, 8886082228375110636500000, 851355181500168256560000⟩,
  ⟨6912005366558516975300, 262562590124721384480000, 8886082228375112857000000⟩,
  ⟨6912005366558516975300, 8886082228375111746700000, 262562590124720725280000⟩,
  ⟨6912005366558516975300, 851355181500169644340000, 8886082228375111746700000⟩,
  ⟨6912005366558516975300, 262562590124718053810000, 851355181500171864780000⟩,
  ⟨18292558965134965866000, 4084926257856330567000000, 624750974503704217810000⟩,
  ⟨18292558965134965866000, 5290322767639965562100000, 4084926257856330567000000⟩,
  ⟨18292558965134965866000, 624750974503703870870000, 5290322767639967782600000⟩,
  ⟨18292558965134965866000, 5290322767639964451900000, 624750974503704217810000⟩,
  ⟨18292558965134965866000, 4084926257856331122100000, 5290322767639966672300000⟩,
  ⟨18292558965134965866000, 624750974503703038200000, 4084926257856333342600000⟩,
  ⟨26050024274332905100000, 3822510450948137794600000, 1737762098761934936900000⟩,
  ⟨26050024274332905100000, 4439727450289926991000000, 3822510450948138904800000⟩,
  ⟨26050024274332905100000, 1737762098761934104200000, 4439727450289928656300000⟩,
  ⟨26050024274332905100000, 4439727450289927546100000, 1737762098761934936900000⟩,
  ⟨26050024274332905100000, 3822510450948138904800000, 4439727450289928101200000⟩,
  ⟨26050024274332905100000, 1737762098761933549100000, 3822510450948140015000000⟩,
  ⟨1036552802953824678700, 259740322065890247290000, 20491260430695718529000⟩,
  ⟨1036552802953824678700, 9719768417503412694100000, 259740322065890108520000⟩,
  ⟨1036552802953824678700, 20491260430697821882000, 9719768417503414914500000⟩,
  ⟨1036552802953824678700, 9719768417503414914500000, 20491260430695718529000⟩,
  ⟨1036552802953824678700, 259740322065891704460000, 9719768417503414914500000⟩,
  ⟨1036552802953824678700, 20491260430692530975000, 259740322065893959600000⟩,
  ⟨9791581434315786182400, 3856891887600643054100000, 188900416615420362050000⟩,
  ⟨9791581434315786182400, 5954207695783936271600000, 3856891887600643609200000⟩,
  ⟨9791581434315786182400, 188900416615420674300000, 5954207695783937381900000⟩,
  ⟨9791581434315786182400, 5954207695783936271600000, 188900416615420362050000⟩,
  ⟨9791581434315786182400, 3856891887600644164300000, 5954207695783937381900000⟩,
  ⟨9791581434315786182400, 188900416615419008970000, 3856891887600646384700000⟩,
  ⟨16044612649593796919000, 1907464794314031042400000, 826189529456984456110000⟩,
  ⟨16044612649593796919000, 7266345676228984640200000, 1907464794314031042400000⟩,
  ⟨16044612649593796919000, 826189529456984317330000, 7266345676228986860700000⟩,
  ⟨16044612649593796919000, 7266345676228984640200000, 826189529456984456110000⟩,
  ⟨16044612649593796919000, 1907464794314031597500000, 7266345676228985750500000⟩,
  ⟨16044612649593796919000, 826189529456982374440000, 1907464794314033818000000⟩,
  ⟨1572075773065925057600, 493146516048518085420000, 22799567867531097924000⟩,
  ⟨1572075773065925057600, 9484053916083950985800000, 493146516048517669080000⟩,
  ⟨1572075773065925057600, 22799567867532455345000, 9484053916083952096000000⟩,
  ⟨1572075773065925057600, 9484053916083950985800000, 22799567867531097924000⟩,
  ⟨1572075773065925057600, 493146516048519334420000, 9484053916083952096000000⟩,
  ⟨1572075773065925057600, 22799567867527632814000, 493146516048521207920000⟩,
  ⟨5392572775602049806400, 4264825454980465946300000, 47722521203026439796000⟩,
  ⟨5392572775602049806400, 5687452023816508273100000, 4264825454980466501500000⟩,
  ⟨5392572775602049806400, 47722521203025780601000, 5687452023816510493500000⟩,
  ⟨5392572775602049806400, 5687452023816508273100000, 47722521203026439796000⟩,
  ⟨5392572775602049806400, 4264825454980466501500000, 5687452023816508273100000⟩,
  ⟨5392572775602049806400, 47722521203025503045000, 4264825454980468166800000⟩,
  ⟨18002134883076065328000, 1513647526705650947500000, 1162023564115880619500000⟩,
  ⟨18002134883076065328000, 7324328909178469126900000, 1513647526705650947500000⟩,
  ⟨18002134883076065328000, 1162023564115880480700000, 7324328909178470237200000⟩,
  ⟨18002134883076065328000, 7324328909178468016700000, 1162023564115880619500000⟩,
  ⟨18002134883076065328000, 1513647526705651502600000, 7324328909178470237200000⟩,
  ⟨18002134883076065328000, 1162023564115878121500000, 1513647526705654000600000⟩,
  ⟨18305957089213074733000, 2410855603909864419700000, 855252642423670605960000⟩,
  ⟨18305957089213074733000, 6733891753666465529400000, 2410855603909864697300000⟩,
  ⟨18305957089213074733000, 855252642423670605960000, 6733891753666466639700000⟩,
  ⟨18305957089213074733000, 6733891753666465529400000, 855252642423670605960000⟩,
  ⟨18305957089213074733000, 2410855603909864419700000, 6733891753666466639700000⟩,
  ⟨18305957089213074733000, 855252642423668663070000, 2410855603909866640100000⟩,
  ⟨10808561569375404847000, 2120362112054796910300000, 297767883228066514160000⟩,
  ⟨10808561569375404847000, 7581870004717137234700000, 2120362112054797187900000⟩,
  ⟨10808561569375404847000, 297767883228066687630000, 7581870004717138344900000⟩,
  ⟨10808561569375404847000, 7581870004717137234700000, 297767883228066514160000⟩,
  ⟨10808561569375404847000, 2120362112054797187900000, 7581870004717138344900000⟩,
  ⟨10808561569375404847000, 297767883228064467180000, 2120362112054799963400000⟩,
  ⟨9005281381930891823600, 773420280842538471200000, 502535370358713970320000⟩,
  ⟨9005281381930891823600, 8724044348798747350300000, 773420280842538609980000⟩,
  ⟨9005281381930891823600, 502535370358714317260000, 8724044348798749570800000⟩,
  ⟨9005281381930891823600, 8724044348798747350300000, 502535370358713970320000⟩,
  ⟨9005281381930891823600, 773420280842539997760000, 8724044348798748460500000⟩,
  ⟨9005281381930891823600, 502535370358711888650000, 773420280842542079420000⟩,
  ⟨27237796471379395469000, 2659270236545313026400000, 2163002071023543970700000⟩,
  ⟨27237796471379395469000, 5177727692431142170200000, 2659270236545314136700000⟩,
  ⟨27237796471379395469000, 2163002071023543138000000, 5177727692431144390600000⟩,
  ⟨27237796471379395469000, 5177727692431143280400000, 2163002071023543970700000⟩,
  ⟨27237796471379395469000, 2659270236545313581500000, 5177727692431144390600000⟩,
  ⟨27237796471379395469000, 2163002071023542305400000, 2659270236545315246900000⟩,
  ⟨25762802722419063384000, 2131382724801907657700000, 2131382724801909600600000⟩,
  ⟨25762802722419063384000, 5737234550396183019300000, 2131382724801908490300000⟩,
  ⟨25762802722419063384000, 2131382724801909045500000, 5737234550396184129500000⟩,
  ⟨698926007621861877920, 102781124040352035700000, 23182076844770948751000⟩,
  ⟨698926007621861877920, 9874036799114876972200000, 102781124040351983660000⟩,
  ⟨698926007621861877920, 23182076844772692148000, 9874036799114876972200000⟩,
  ⟨698926007621861877920, 9874036799114878082400000, 23182076844770948751000⟩,
  ⟨698926007621861877920, 102781124040353666340000, 9874036799114876972200000⟩,
  ⟨698926007621861877920, 23182076844768554832000, 102781124040355834740000⟩,
  ⟨24965025749709162002000, 4336266613666109326400000, 1327466772667781069700000⟩,
  ⟨24965025749709162002000, 4336266613666108771200000, 4336266613666110436600000⟩,
  ⟨24965025749709162002000, 1327466772667779959500000, 4336266613666111546800000⟩,
  ⟨5981005925976505934300, 3637486804898150683000000, 64301877897617425173000⟩,
  ⟨5981005925976505934300, 6298211317204231996000000, 3637486804898151238100000⟩,
  ⟨5981005925976505934300, 64301877897616765978000, 6298211317204234216400000⟩,
  ⟨5981005925976505934300, 6298211317204231996000000, 64301877897617425173000⟩,
  ⟨5981005925976505934300, 3637486804898151238100000, 6298211317204231996000000⟩,
  ⟨5981005925976505934300, 64301877897615933311000, 3637486804898154013600000⟩,
  ⟨24762829117917907300000, 3698202051067136508800000, 1331111150654714636600000⟩,
  ⟨24762829117917907300000, 4970686798278148299500000, 3698202051067137619000000⟩,
  ⟨24762829117917907300000, 1331111150654714081500000, 4970686798278151075100000⟩,
  ⟨24762829117917907300000, 4970686798278148299500000, 1331111150654714636600000⟩,
  ⟨24762829117917907300000, 3698202051067136508800000, 4970686798278149409700000⟩,
  ⟨24762829117917907300000, 1331111150654713526400000, 3698202051067138729200000⟩,
  ⟨21217492459270808139000, 1599009144405388327400000, 1599009144405390270300000⟩,
  ⟨21217492459270808139000, 6801981711189222235000000, 1599009144405388604900000⟩,
  ⟨21217492459270808139000, 1599009144405389992700000, 6801981711189224455400000⟩,
  ⟨4438002805123098860400, 280636634926781647350000, 280636634926784665770000⟩,
  ⟨4438002805123098860400, 9438726730146433929700000, 280636634926781473880000⟩,
  ⟨4438002805123098860400, 280636634926785810680000, 9438726730146435040000000⟩,
  ⟨25276029369482111778000, 2622368556255414429000000, 1682524853715629542500000⟩,
  ⟨25276029369482111778000, 5695106590028955473300000, 2622368556255416094400000⟩,
  ⟨25276029369482111778000, 1682524853715629542500000, 5695106590028956583500000⟩,
  ⟨25276029369482111778000, 5695106590028955473300000, 1682524853715629542500000⟩,
  ⟨25276029369482111778000, 2622368556255414984200000, 5695106590028956583500000⟩,
  ⟨25276029369482111778000, 1682524853715627599600000, 2622368556255417204600000⟩,
  ⟨3027955309496029858900, 2058652741989988321800000, 23776437008402018757000⟩,
  ⟨3027955309496029858900, 7917570821001609360200000, 2058652741989988321800000⟩,
  ⟨3027955309496029858900, 23776437008402595552000, 7917570821001611580700000⟩,
  ⟨3027955309496029858900, 7917570821001609360200000, 23776437008402018757000⟩,
  ⟨3027955309496029858900, 2058652741989988044200000, 7917570821001611580700000⟩,
  ⟨3027955309496029858900, 23776437008399958772000, 2058652741989991097300000⟩,
  ⟨26788951054618594452000, 3210612992391710940300000, 1792751769147349072400000⟩,
  ⟨26788951054618594452000, 4996635238460939154600000, 3210612992391712605700000⟩,
  ⟨26788951054618594452000, 1792751769147348794900000, 4996635238460941375000000⟩,
  ⟨26788951054618594452000, 4996635238460939154600000, 1792751769147349072400000⟩,
  ⟨26788951054618594452000, 3210612992391711495400000, 4996635238460940264800000⟩,
  ⟨26788951054618594452000, 1792751769147347962200000, 3210612992391713160800000⟩,
  ⟨11827676122501339876000, 2670089253528111217200000, 284633516120191137900000⟩,
  ⟨11827676122501339876000, 7045277230351697506100000, 2670089253528111217200000⟩,
  ⟨11827676122501339876000, 284633516120190721570000, 7045277230351700836800000⟩,
  ⟨11827676122501339876000, 7045277230351697506100000, 284633516120191137900000⟩,
  ⟨11827676122501339876000, 2670089253528112327500000, 7045277230351697506100000⟩,
  ⟨11827676122501339876000, 284633516120189333790000, 2670089253528114547900000⟩,
  ⟨3180880278224878653300, 2586045410103510189300000, 22264670918958695892000⟩,
  ⟨3180880278224878653300, 7391689918977530915400000, 2586045410103510744400000⟩,
  ⟨3180880278224878653300, 22264670918958895385000, 7391689918977533135800000⟩,
  ⟨3180880278224878653300, 7391689918977530915400000, 22264670918958695892000⟩,
  ⟨3180880278224878653300, 2586045410103511299500000, 7391689918977530915400000⟩,
  ⟨3180880278224878653300, 22264670918957230050000, 2586045410103513519900000⟩,
  ⟨20583897158791817673000, 1996247626773604289000000, 1203643695722495521300000⟩,
  ⟨20583897158791817673000, 6800108677503899912200000, 1996247626773604844100000⟩,
  ⟨20583897158791817673000, 1203643695722494966200000, 6800108677503902132600000⟩,
  ⟨20583897158791817673000, 6800108677503899912200000, 1203643695722495521300000⟩,
  ⟨20583897158791817673000, 1996247626773605121600000, 6800108677503902132600000⟩,
  ⟨20583897158791817673000, 1203643695722493578400000, 1996247626773606787000000⟩,
  ⟨23717830850862272642000, 2088908643844064605400000, 1643344616867156438000000⟩,
  ⟨23717830850862272642000, 6267746739288778679000000, 2088908643844064605400000⟩,
  ⟨23717830850862272642000, 1643344616867156715600000, 6267746739288780899500000⟩,
  ⟨23717830850862272642000, 6267746739288778679000000, 1643344616867156438000000⟩,
  ⟨23717830850862272642000, 2088908643844064605400000, 6267746739288780899500000⟩,
  ⟨23717830850862272642000, 1643344616867155050200000, 2088908643844066548300000⟩,
  ⟨15869641744859636079000, 1080471292423059170900000, 1080471292423061807600000⟩,
  ⟨15869641744859636079000, 7839057415153878327600000, 1080471292423059170900000⟩,
  ⟨15869641744859636079000, 1080471292423061946400000, 7839057415153880548100000⟩,
  ⟨23011337125740920911000, 2533336006018089281400000, 1238874588376767393900000⟩,
  ⟨23011337125740920911000, 6227789405605143047100000, 2533336006018089281400000⟩,
  ⟨23011337125740920911000, 1238874588376767116300000, 6227789405605146377800000⟩,
  ⟨23011337125740920911000, 6227789405605143047100000, 1238874588376767393900000⟩,
  ⟨23011337125740920911000, 2533336006018089281400000, 6227789405605145267600000⟩,
  ⟨23011337125740920911000, 1238874588376765728500000, 2533336006018091501900000⟩,
  ⟨6475399556947823535800, 4971756372384660838100000, 56487255230678809492000⟩,
  ⟨6475399556947823535800, 4971756372384660283000000, 4971756372384661393200000⟩,
  ⟨6475399556947823535800, 56487255230678046214000, 4971756372384663058600000⟩,
  ⟨1175044612402876951700, 4637961227465663416300000, 1600103893843232141400⟩,
  ⟨1175044612402876951700, 5360438668640493675700000, 4637961227465663416300000⟩,
  ⟨1175044612402876951700, 1600103893842352853500, 5360438668640495896200000⟩,
  ⟨1175044612402876951700, 5360438668640493675700000, 1600103893843232141400⟩,
  ⟨1175044612402876951700, 4637961227465663416300000, 5360438668640494785900000⟩,
  ⟨1175044612402876951700, 1600103893842352853500, 4637961227465665636800000⟩,
  ⟨1199368394655544274200, 3837177990505464264500000, 1085092017436626834100⟩,
  ⟨1199368394655544274200, 6161736917477098618400000, 3837177990505464264500000⟩,
  ⟨1199368394655544274200, 1085092017436561917500, 6161736917477100838900000⟩,
  ⟨1199368394655544274200, 6161736917477098618400000, 1085092017436626834100⟩,
  ⟨1199368394655544274200, 3837177990505465374800000, 6161736917477099728700000⟩,
  ⟨1199368394655544274200, 1085092017435451694500, 3837177990505467040100000⟩]

end Verif
