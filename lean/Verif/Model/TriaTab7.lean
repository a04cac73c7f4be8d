import Verif.Model.TriaTabBase

/-! Generated by tools/quad_tables.py from /repo/lib/lf/quad/quad_rules_tria.cc. -/

namespace Verif

/-- `HardcodedQuadRule<kTria, 47>()`; /repo/lib/lf/quad/quad_rules_tria.cc:19480-20683. -/
def triaTab47 : List TabRow := [
  ⟨21573284791667592455000, 3491775041543909718900000, 3016449916912181117300000⟩,
  ⟨21573284791667592455000, 3491775041543909718900000, 3491775041543910274000000⟩,
  ⟨21573284791667592455000, 3016449916912180007100000, 3491775041543910829100000⟩,
  ⟨1063910032624725048300, 132182347742614610810000, 69261081189946789582000⟩,
  ⟨1063910032624725048300, 9798556571067439380200000, 132182347742614125090000⟩,
  ⟨1063910032624725048300, 69261081189948559000000, 9798556571067439380200000⟩,
  ⟨1063910032624725048300, 9798556571067438270000000, 69261081189946789582000⟩,
  ⟨1063910032624725048300, 132182347742615946550000, 9798556571067439380200000⟩,
  ⟨1063910032624725048300, 69261081189944170150000, 132182347742618618030000⟩,
  ⟨11257413724643054731000, 1820741432615592125800000, 816358471109855377000000⟩,
  ⟨11257413724643054731000, 7362900096274551664500000, 1820741432615592680900000⟩,
  ⟨11257413724643054731000, 816358471109855377000000, 7362900096274554995200000⟩,
  ⟨11257413724643054731000, 7362900096274552774700000, 816358471109855377000000⟩,
  ⟨11257413724643054731000, 1820741432615591848300000, 7362900096274554995200000⟩,
  ⟨11257413724643054731000, 816358471109853017780000, 1820741432615594901400000⟩,
  ⟨11325350577440164348000, 1505809273177013685200000, 861963659887330785340000⟩,
  ⟨11325350577440164348000, 7632227066935655113200000, 1505809273177013962700000⟩,
  ⟨11325350577440164348000, 861963659887331479230000, 7632227066935657333600000⟩,
  ⟨11325350577440164348000, 7632227066935656223400000, 861963659887330785340000⟩,
  ⟨11325350577440164348000, 1505809273177014517800000, 7632227066935657333600000⟩,
  ⟨11325350577440164348000, 861963659887328287330000, 1505809273177016460700000⟩,
  ⟨23495856156259520807000, 3028965441179143347500000, 3028965441179145012800000⟩,
  ⟨23495856156259520807000, 3942069117641711639700000, 3028965441179144457700000⟩,
  ⟨23495856156259520807000, 3028965441179143347500000, 3942069117641712749900000⟩,
  ⟨7013647873401223547000, 764329826567074904760000, 502931805301914183760000⟩,
  ⟨7013647873401223547000, 8732738368131011119600000, 764329826567074627210000⟩,
  ⟨7013647873401223547000, 502931805301914391930000, 8732738368131013340100000⟩,
  ⟨7013647873401223547000, 8732738368131011119600000, 502931805301914183760000⟩,
  ⟨7013647873401223547000, 764329826567075598650000, 8732738368131013340100000⟩,
  ⟨7013647873401223547000, 502931805301912310260000, 764329826567078096660000⟩,
  ⟨489049584063298958920, 138326160976293081190000, 10488989499174523543000⟩,
  ⟨489049584063298958920, 9851184849524532438600000, 138326160976292942410000⟩,
  ⟨489049584063298958920, 10488989499176648579000, 9851184849524532438600000⟩,
  ⟨489049584063298958920, 9851184849524532438600000, 10488989499174523543000⟩,
  ⟨489049584063298958920, 138326160976294243450000, 9851184849524532438600000⟩,
  ⟨489049584063298958920, 10488989499172606673000, 138326160976296776150000⟩,
  ⟨2019314934017464092400, 267452272430761042730000, 100204975653522664750000⟩,
  ⟨2019314934017464092400, 9632342751915715650700000, 267452272430761320290000⟩,
  ⟨2019314934017464092400, 100204975653523375990000, 9632342751915717871100000⟩,
  ⟨2019314934017464092400, 9632342751915716760900000, 100204975653522664750000⟩,
  ⟨2019314934017464092400, 267452272430762083570000, 9632342751915717871100000⟩,
  ⟨2019314934017464092400, 100204975653519663680000, 267452272430764512180000⟩,
  ⟨6182462048526728322400, 505319024623013812740000, 505319024623016588290000⟩,
  ⟨6182462048526728322400, 8989361950753969043900000, 505319024623013327010000⟩,
  ⟨6182462048526728322400, 505319024623017698520000, 8989361950753971264300000⟩,
  ⟨25768276603065367290000, 3711902367525145018900000, 2036742530451799149100000⟩,
  ⟨25768276603065367290000, 4251355102023055554400000, 3711902367525146129200000⟩,
  ⟨25768276603065367290000, 2036742530451798316400000, 4251355102023056664600000⟩,
  ⟨25768276603065367290000, 4251355102023054999300000, 2036742530451799149100000⟩,
  ⟨25768276603065367290000, 3711902367525145574100000, 4251355102023056664600000⟩,
  ⟨25768276603065367290000, 2036742530451797761300000, 3711902367525147239400000⟩,
  ⟨22547355281919661922000, 3688949727921183585600000, 1593266838739336721500000⟩,
  ⟨22547355281919661922000, 4717783433339479692800000, 3688949727921184140700000⟩,
  ⟨22547355281919661922000, 1593266838739335888900000, 4717783433339481358200000⟩,
  ⟨22547355281919661922000, 4717783433339479137700000, 1593266838739336721500000⟩,
  ⟨22547355281919661922000, 3688949727921184140700000, 4717783433339480803100000⟩,
  ⟨22547355281919661922000, 1593266838739335056200000, 3688949727921185806100000⟩,
  ⟨22579986890965504306000, 4215093928787093657800000, 1569812142425812129300000⟩,
  ⟨22579986890965504306000, 4215093928787094768000000, 4215093928787094768000000⟩,
  ⟨22579986890965504306000, 1569812142425811296600000, 4215093928787095323200000⟩,
  ⟨9572944836030110706300, 1070745798931199421800000, 533687025646959883880000⟩,
  ⟨9572944836030110706300, 8395567175421840833100000, 1070745798931199283000000⟩,
  ⟨9572944836030110706300, 533687025646960577770000, 8395567175421843053600000⟩,
  ⟨9572944836030110706300, 8395567175421840833100000, 533687025646959883880000⟩,
  ⟨9572944836030110706300, 1070745798931199699300000, 8395567175421843053600000⟩,
  ⟨9572944836030110706300, 533687025646956830770000, 1070745798931202752400000⟩,
  ⟨13031325914996505066000, 1152179121673602146800000, 852960644923164285070000⟩,
  ⟨13031325914996505066000, 7994860233403233706900000, 1152179121673602285600000⟩,
  ⟨13031325914996505066000, 852960644923164701400000, 7994860233403234817100000⟩,
  ⟨13031325914996505066000, 7994860233403233706900000, 852960644923164285070000⟩,
  ⟨13031325914996505066000, 1152179121673602701900000, 7994860233403234817100000⟩,
  ⟨13031325914996505066000, 852960644923162064620000, 1152179121673605199900000⟩,
  ⟨14722405331371289389000, 4746270243429587809600000, 507459513140824172720000⟩,
  ⟨14722405331371289389000, 4746270243429587809600000, 4746270243429588364700000⟩,
  ⟨14722405331371289389000, 507459513140823270660000, 4746270243429590030000000⟩,
  ⟨15380786371433224913000, 4179628539698995171000000, 514822979290668059080000⟩,
  ⟨15380786371433224913000, 5305548481010338157700000, 4179628539698995171000000⟩,
  ⟨15380786371433224913000, 514822979290667781530000, 5305548481010339267900000⟩,
  ⟨15380786371433224913000, 5305548481010337047400000, 514822979290668059080000⟩,
  ⟨15380786371433224913000, 4179628539698995171000000, 5305548481010338157700000⟩,
  ⟨15380786371433224913000, 514822979290667226420000, 4179628539698997391500000⟩,
  ⟨10415012431973648226000, 795728420692438376260000, 795728420692441290600000⟩,
  ⟨10415012431973648226000, 8408543158615120471900000, 795728420692438515040000⟩,
  ⟨10415012431973648226000, 795728420692442539600000, 8408543158615121582100000⟩,
  ⟨5164061562559451017800, 462992599159318674040000, 275536314394735394610000⟩,
  ⟨5164061562559451017800, 9261471086445945966000000, 462992599159318257710000⟩,
  ⟨5164061562559451017800, 275536314394737025250000, 9261471086445947076300000⟩,
  ⟨5164061562559451017800, 9261471086445945966000000, 275536314394735394610000⟩,
  ⟨5164061562559451017800, 462992599159319784260000, 9261471086445947076300000⟩,
  ⟨5164061562559451017800, 275536314394732549660000, 462992599159322074100000⟩,
  ⟨21771806152064221776000, 3250299373159994398300000, 1187020271689408490400000⟩,
  ⟨21771806152064221776000, 5562680355150596556200000, 3250299373159994953400000⟩,
  ⟨21771806152064221776000, 1187020271689408490400000, 5562680355150598776600000⟩,
  ⟨21771806152064221776000, 5562680355150597666400000, 1187020271689408490400000⟩,
  ⟨21771806152064221776000, 3250299373159994398300000, 5562680355150598776600000⟩,
  ⟨21771806152064221776000, 1187020271689407380200000, 3250299373159996063600000⟩,
  ⟨16960439589115200096000, 2230214568534537866700000, 850615771696930367260000⟩,
  ⟨16960439589115200096000, 6919169659768531488500000, 2230214568534538144300000⟩,
  ⟨16960439589115200096000, 850615771696930367260000, 6919169659768533708900000⟩,
  ⟨16960439589115200096000, 6919169659768531488500000, 850615771696930367260000⟩,
  ⟨16960439589115200096000, 2230214568534538144300000, 6919169659768532598700000⟩,
  ⟨16960439589115200096000, 850615771696928979480000, 2230214568534540364700000⟩,
  ⟨22665783523017624113000, 3822400802517831319700000, 1181275084411924081200000⟩,
  ⟨22665783523017624113000, 4996324113070245154200000, 3822400802517831319700000⟩,
  ⟨22665783523017624113000, 1181275084411923803600000, 4996324113070246819600000⟩,
  ⟨22665783523017624113000, 4996324113070245154200000, 1181275084411924081200000⟩,
  ⟨22665783523017624113000, 3822400802517830764600000, 4996324113070246264500000⟩,
  ⟨22665783523017624113000, 1181275084411922693400000, 3822400802517832985000000⟩,
  ⟨26848596537823368052000, 3186810168040574708900000, 2527083506527416645300000⟩,
  ⟨26848596537823368052000, 4286106325432008090600000, 3186810168040575819100000⟩,
  ⟨26848596537823368052000, 2527083506527415535100000, 4286106325432010311100000⟩,
  ⟨26848596537823368052000, 4286106325432008645700000, 2527083506527416645300000⟩,
  ⟨26848596537823368052000, 3186810168040574708900000, 4286106325432010311100000⟩,
  ⟨26848596537823368052000, 2527083506527415535100000, 3186810168040576374300000⟩,
  ⟨25056259451338340830000, 3161024291972919786400000, 2057459412081716065800000⟩,
  ⟨25056259451338340830000, 4781516295945363870200000, 3161024291972920341500000⟩,
  ⟨25056259451338340830000, 2057459412081715233200000, 4781516295945366090700000⟩,
  ⟨25056259451338340830000, 4781516295945364425400000, 2057459412081716065800000⟩,
  ⟨25056259451338340830000, 3161024291972920341500000, 4781516295945364980500000⟩,
  ⟨25056259451338340830000, 2057459412081715233200000, 3161024291972921451700000⟩,
  ⟨3315039316333869999200, 236802291430402538090000, 236802291430405556500000⟩,
  ⟨3315039316333869999200, 9526395417139190691100000, 236802291430402329920000⟩,
  ⟨3315039316333869999200, 236802291430406319780000, 9526395417139194021800000⟩,
  ⟨9766971373944373022200, 2017143602625016685100000, 286457371054149485810000⟩,
  ⟨9766971373944373022200, 7696399026320834835200000, 2017143602625016685100000⟩,
  ⟨9766971373944373022200, 286457371054150145010000, 7696399026320835945500000⟩,
  ⟨9766971373944373022200, 7696399026320833725000000, 286457371054149485810000⟩,
  ⟨9766971373944373022200, 2017143602625018350400000, 7696399026320833725000000⟩,
  ⟨9766971373944373022200, 286457371054148063340000, 2017143602625019738200000⟩,
  ⟨11350766457997049988000, 3040953744572968409100000, 287008250916218343730000⟩,
  ⟨11350766457997049988000, 6672038004510812969600000, 3040953744572969519300000⟩,
  ⟨11350766457997049988000, 287008250916218066170000, 6672038004510815190100000⟩,
  ⟨11350766457997049988000, 6672038004510812969600000, 287008250916218343730000⟩,
  ⟨11350766457997049988000, 3040953744572970074400000, 6672038004510812969600000⟩,
  ⟨11350766457997049988000, 287008250916216678390000, 3040953744572972294900000⟩,
  ⟨10693364915242433398000, 2509406000944529036000000, 290822358487935334060000⟩,
  ⟨10693364915242433398000, 7199771640567534936000000, 2509406000944529591100000⟩,
  ⟨10693364915242433398000, 290822358487936583060000, 7199771640567536046300000⟩,
  ⟨10693364915242433398000, 7199771640567536046300000, 290822358487935334060000⟩,
  ⟨10693364915242433398000, 2509406000944529591100000, 7199771640567536046300000⟩,
  ⟨10693364915242433398000, 290822358487933252390000, 2509406000944531811600000⟩,
  ⟨21390670916362061402000, 2701136854877469462000000, 1217422359406605120200000⟩,
  ⟨21390670916362061402000, 6081440785715925834200000, 2701136854877469462000000⟩,
  ⟨21390670916362061402000, 1217422359406604703800000, 6081440785715928054600000⟩,
  ⟨21390670916362061402000, 6081440785715925834200000, 1217422359406605120200000⟩,
  ⟨21390670916362061402000, 2701136854877470017100000, 6081440785715926944400000⟩,
  ⟨21390670916362061402000, 1217422359406603038500000, 2701136854877471682500000⟩,
  ⟨12535096722214029812000, 4230078867718429225200000, 279469184369985149120000⟩,
  ⟨12535096722214029812000, 5490451947911586527700000, 4230078867718429780400000⟩,
  ⟨12535096722214029812000, 279469184369984802170000, 5490451947911587637900000⟩,
  ⟨12535096722214029812000, 5490451947911586527700000, 279469184369985149120000⟩,
  ⟨12535096722214029812000, 4230078867718429225200000, 5490451947911586527700000⟩,
  ⟨12535096722214029812000, 279469184369983969510000, 4230078867718431445700000⟩,
  ⟨19868655501992450903000, 2188381084082619831800000, 1221400667583724675100000⟩,
  ⟨19868655501992450903000, 6590218248333655770600000, 2188381084082620387000000⟩,
  ⟨19868655501992450903000, 1221400667583724675100000, 6590218248333656880800000⟩,
  ⟨19868655501992450903000, 6590218248333654660300000, 1221400667583724675100000⟩,
  ⟨19868655501992450903000, 2188381084082620109400000, 6590218248333656880800000⟩,
  ⟨19868655501992450903000, 1221400667583722454700000, 2188381084082622329800000⟩,
  ⟨27991272163015372236000, 2630564357703721878300000, 2630564357703724653900000⟩,
  ⟨27991272163015372236000, 4738871284592552912700000, 2630564357703723543700000⟩,
  ⟨27991272163015372236000, 2630564357703724098800000, 4738871284592554578000000⟩,
  ⟨23702068431689106952000, 3155582824301562672200000, 1604129850910246957200000⟩,
  ⟨23702068431689106952000, 5240287324788190925800000, 3155582824301563227300000⟩,
  ⟨23702068431689106952000, 1604129850910246402100000, 5240287324788192036000000⟩,
  ⟨23702068431689106952000, 5240287324788189815500000, 1604129850910246957200000⟩,
  ⟨23702068431689106952000, 3155582824301562117100000, 5240287324788192036000000⟩,
  ⟨23702068431689106952000, 1604129850910245291800000, 3155582824301564892600000⟩,
  ⟨15804510788922389568000, 3599942050767866996700000, 520384051030055791440000⟩,
  ⟨15804510788922389568000, 5879673898202076864900000, 3599942050767868106900000⟩,
  ⟨15804510788922389568000, 520384051030055583280000, 5879673898202079085400000⟩,
  ⟨15804510788922389568000, 5879673898202076864900000, 520384051030055791440000⟩,
  ⟨15804510788922389568000, 3599942050767867551800000, 5879673898202076864900000⟩,
  ⟨15804510788922389568000, 520384051030054750610000, 3599942050767869772300000⟩,
  ⟨6532465158918597351900, 761492805627096702730000, 280080973264347880820000⟩,
  ⟨6532465158918597351900, 8958426221108554132800000, 761492805627096563950000⟩,
  ⟨6532465158918597351900, 280080973264348886960000, 8958426221108556353200000⟩,
  ⟨6532465158918597351900, 8958426221108555243000000, 280080973264347880820000⟩,
  ⟨6532465158918597351900, 761492805627098090500000, 8958426221108556353200000⟩,
  ⟨6532465158918597351900, 280080973264345903240000, 761492805627100172170000⟩,
  ⟨12112082852970397582000, 3616871250428564943400000, 283641992932530291600000⟩,
  ⟨12112082852970397582000, 6099486756638904383400000, 3616871250428565498500000⟩,
  ⟨12112082852970397582000, 283641992932530118130000, 6099486756638906603800000⟩,
  ⟨12112082852970397582000, 6099486756638904383400000, 283641992932530291600000⟩,
  ⟨12112082852970397582000, 3616871250428564388300000, 6099486756638906603800000⟩,
  ⟨12112082852970397582000, 283641992932528452800000, 3616871250428568274100000⟩,
  ⟨22759072567849437593000, 4420693972638305435700000, 1158612054723388989900000⟩,
  ⟨22759072567849437593000, 4420693972638305990800000, 4420693972638306545900000⟩,
  ⟨22759072567849437593000, 1158612054723388018500000, 4420693972638307656100000⟩,
  ⟨12536406752904321726000, 4861601074836897629100000, 276797850326204637750000⟩,
  ⟨12536406752904321726000, 4861601074836897629100000, 4861601074836898184200000⟩,
  ⟨12536406752904321726000, 276797850326203909170000, 4861601074836900404600000⟩,
  ⟨20668792951942234308000, 3969570429794790911200000, 818149550216045046150000⟩,
  ⟨20668792951942234308000, 5212280019989163903900000, 3969570429794792021400000⟩,
  ⟨20668792951942234308000, 818149550216044629810000, 5212280019989165014100000⟩,
  ⟨20668792951942234308000, 5212280019989163903900000, 818149550216045046150000⟩,
  ⟨20668792951942234308000, 3969570429794791466300000, 5212280019989165014100000⟩,
  ⟨20668792951942234308000, 818149550216044074700000, 3969570429794793131600000⟩,
  ⟨25525665906056130630000, 2635821046503857290100000, 2121338963165612101500000⟩,
  ⟨25525665906056130630000, 5242839990330530053300000, 2635821046503858400300000⟩,
  ⟨25525665906056130630000, 2121338963165610991300000, 5242839990330532273800000⟩,
  ⟨25525665906056130630000, 5242839990330530053300000, 2121338963165612101500000⟩,
  ⟨25525665906056130630000, 2635821046503857845200000, 5242839990330532273800000⟩,
  ⟨25525665906056130630000, 2121338963165610436200000, 2635821046503860065600000⟩,
  ⟨13488116669917076321000, 1925350542122711561300000, 524452042229162709860000⟩,
  ⟨13488116669917076321000, 7550197415648125520700000, 1925350542122711561300000⟩,
  ⟨13488116669917076321000, 524452042229163195590000, 7550197415648127741200000⟩,
  ⟨13488116669917076321000, 7550197415648126630900000, 524452042229162709860000⟩,
  ⟨13488116669917076321000, 1925350542122711283700000, 7550197415648127741200000⟩,
  ⟨13488116669917076321000, 524452042229161113920000, 1925350542122714336800000⟩,
  ⟨9404821989536489915100, 1550537980019329187300000, 291776764327326132430000⟩,
  ⟨9404821989536489915100, 8157685255653345235400000, 1550537980019329464800000⟩,
  ⟨9404821989536489915100, 291776764327326687540000, 8157685255653346345600000⟩,
  ⟨9404821989536489915100, 8157685255653344125200000, 291776764327326132430000⟩,
  ⟨9404821989536489915100, 1550537980019329742400000, 8157685255653346345600000⟩,
  ⟨9404821989536489915100, 291776764327324050760000, 1550537980019332795500000⟩,
  ⟨4571095051371310480000, 808139183670610050660000, 116752954894914842690000⟩,
  ⟨4571095051371310480000, 9075107861434476008700000, 808139183670609634320000⟩,
  ⟨4571095051371310480000, 116752954894915883520000, 9075107861434477118900000⟩,
  ⟨4571095051371310480000, 9075107861434474898500000, 116752954894914842690000⟩,
  ⟨4571095051371310480000, 808139183670609773100000, 9075107861434477118900000⟩,
  ⟨4571095051371310480000, 116752954894912483460000, 808139183670613242550000⟩,
  ⟨20322149629336009810000, 1621461225224503088800000, 1621461225224505031700000⟩,
  ⟨20322149629336009810000, 6757077549550991602000000, 1621461225224503921400000⟩,
  ⟨20322149629336009810000, 1621461225224505864300000, 6757077549550992712200000⟩,
  ⟨3505328014345405010000, 494903005695827707950000, 113529551848956314350000⟩,
  ⟨3505328014345405010000, 9391567442455215353200000, 494903005695827291620000⟩,
  ⟨3505328014345405010000, 113529551848957632740000, 9391567442455217573600000⟩,
  ⟨3505328014345405010000, 9391567442455215353200000, 113529551848956314350000⟩,
  ⟨3505328014345405010000, 494903005695828124290000, 9391567442455217573600000⟩,
  ⟨3505328014345405010000, 113529551848953504100000, 494903005695830830460000⟩,
  ⟨27525567706757065982000, 3736911818051820155500000, 2526176363896359689000000⟩,
  ⟨27525567706757065982000, 3736911818051819600400000, 3736911818051821265700000⟩,
  ⟨27525567706757065982000, 2526176363896359133900000, 3736911818051821265700000⟩,
  ⟨15950528243575253992000, 3013661191750608425700000, 527412086548005240580000⟩,
  ⟨15950528243575253992000, 6458926721701387929600000, 3013661191750608425700000⟩,
  ⟨15950528243575253992000, 527412086548004754860000, 6458926721701389039900000⟩,
  ⟨15950528243575253992000, 6458926721701386819400000, 527412086548005240580000⟩,
  ⟨15950528243575253992000, 3013661191750608425700000, 6458926721701387929600000⟩,
  ⟨15950528243575253992000, 527412086548003367080000, 3013661191750611201300000⟩,
  ⟨24723307999348739968000, 2125512689048137393600000, 2125512689048139336500000⟩,
  ⟨24723307999348739968000, 5748974621903724102600000, 2125512689048137948700000⟩,
  ⟨24723307999348739968000, 2125512689048138503800000, 5748974621903725212800000⟩,
  ⟨12169129205527667251000, 1455590941243063707300000, 539363844971338171620000⟩,
  ⟨12169129205527667251000, 8005045213785597635300000, 1455590941243063984900000⟩,
  ⟨12169129205527667251000, 539363844971338934900000, 8005045213785599855800000⟩,
  ⟨12169129205527667251000, 8005045213785597635300000, 539363844971338171620000⟩,
  ⟨12169129205527667251000, 1455590941243064540000000, 8005045213785599855800000⟩,
  ⟨12169129205527667251000, 539363844971335881780000, 1455590941243067315500000⟩,
  ⟨1254237257287347520300, 339239311459584025330000, 20268965838006725542000⟩,
  ⟨1254237257287347520300, 9640491722702408949900000, 339239311459583262050000⟩,
  ⟨1254237257287347520300, 20268965838008967673000, 9640491722702410060100000⟩,
  ⟨1254237257287347520300, 9640491722702410060100000, 20268965838006725542000⟩,
  ⟨1254237257287347520300, 339239311459585413110000, 9640491722702410060100000⟩,
  ⟨1254237257287347520300, 20268965838003659419000, 339239311459587702950000⟩,
  ⟨20328949037970796450000, 4598321741495011161200000, 803356517009977677550000⟩,
  ⟨20328949037970796450000, 4598321741495010606100000, 4598321741495012271500000⟩,
  ⟨20328949037970796450000, 803356517009976844880000, 4598321741495013381700000⟩,
  ⟨8554065638802525652800, 4609203982983521297200000, 113741139787508632740000⟩,
  ⟨8554065638802525652800, 5277054877228970486400000, 4609203982983521852300000⟩,
  ⟨8554065638802525652800, 113741139787507661300000, 5277054877228972706900000⟩,
  ⟨8554065638802525652800, 5277054877228969376200000, 113741139787508632740000⟩,
  ⟨8554065638802525652800, 4609203982983521852300000, 5277054877228970486400000⟩,
  ⟨8554065638802525652800, 113741139787507938850000, 4609203982983523517600000⟩,
  ⟨22640060667147004353000, 2096506369927426116600000, 1647197357980590692900000⟩,
  ⟨22640060667147004353000, 6256296272091983468000000, 2096506369927426394200000⟩,
  ⟨22640060667147004353000, 1647197357980590415300000, 6256296272091984578300000⟩,
  ⟨22640060667147004353000, 6256296272091983468000000, 1647197357980590692900000⟩,
  ⟨22640060667147004353000, 2096506369927426116600000, 6256296272091984578300000⟩,
  ⟨22640060667147004353000, 1647197357980589027500000, 2096506369927428337100000⟩,
  ⟨20040696150745215126000, 3356188307276363191900000, 824852827778116137750000⟩,
  ⟨20040696150745215126000, 5818958864945520392800000, 3356188307276364302100000⟩,
  ⟨20040696150745215126000, 824852827778115305080000, 5818958864945522613300000⟩,
  ⟨20040696150745215126000, 5818958864945520392800000, 824852827778116137750000⟩,
  ⟨20040696150745215126000, 3356188307276363191900000, 5818958864945522613300000⟩,
  ⟨20040696150745215126000, 824852827778114472410000, 3356188307276365967400000⟩,
  ⟨5597701999536646442000, 1191983560948026293900000, 118660258094383762320000⟩,
  ⟨5597701999536646442000, 8689356180957589215200000, 1191983560948026293900000⟩,
  ⟨5597701999536646442000, 118660258094385184790000, 8689356180957590325400000⟩,
  ⟨5597701999536646442000, 8689356180957590325400000, 118660258094383762320000⟩,
  ⟨5597701999536646442000, 1191983560948027820500000, 8689356180957590325400000⟩,
  ⟨5597701999536646442000, 118660258094381437790000, 1191983560948029763300000⟩,
  ⟨8278245406138346309000, 1127517427175888931100000, 289885801232179704520000⟩,
  ⟨8278245406138346309000, 8582596771591931572600000, 1127517427175888931100000⟩,
  ⟨8278245406138346309000, 289885801232179773910000, 8582596771591933793000000⟩,
  ⟨8278245406138346309000, 8582596771591931572600000, 289885801232179704520000⟩,
  ⟨8278245406138346309000, 1127517427175888653500000, 8582596771591933793000000⟩,
  ⟨8278245406138346309000, 289885801232177067740000, 1127517427175892400500000⟩,
  ⟨15372786056367874607000, 2446044849937104859200000, 536092519706683826030000⟩,
  ⟨15372786056367874607000, 7017862630356210829100000, 2446044849937105136700000⟩,
  ⟨15372786056367874607000, 536092519706684034200000, 7017862630356213049500000⟩,
  ⟨15372786056367874607000, 7017862630356211939300000, 536092519706683826030000⟩,
  ⟨15372786056367874607000, 2446044849937105136700000, 7017862630356211939300000⟩,
  ⟨15372786056367874607000, 536092519706682230090000, 2446044849937108189900000⟩,
  ⟨24150352120985733514000, 2613278952130154153500000, 1649672925863881201000000⟩,
  ⟨24150352120985733514000, 5737048122005965478100000, 2613278952130154708700000⟩,
  ⟨24150352120985733514000, 1649672925863881478600000, 5737048122005965478100000⟩,
  ⟨24150352120985733514000, 5737048122005964367900000, 1649672925863881201000000⟩,
  ⟨24150352120985733514000, 2613278952130154708700000, 5737048122005965478100000⟩,
  ⟨24150352120985733514000, 1649672925863879813200000, 2613278952130155818900000⟩,
  ⟨19493487019107118979000, 2767102223588470133500000, 841334586353880142790000⟩,
  ⟨19493487019107118979000, 6391563190057648613500000, 2767102223588470688600000⟩,
  ⟨19493487019107118979000, 841334586353880142790000, 6391563190057650834000000⟩,
  ⟨19493487019107118979000, 6391563190057649723700000, 841334586353880142790000⟩,
  ⟨19493487019107118979000, 2767102223588470688600000, 6391563190057650834000000⟩,
  ⟨19493487019107118979000, 841334586353878199900000, 2767102223588472909000000⟩,
  ⟨8229259955773720203900, 3310576983055139588300000, 117181407852650371760000⟩,
  ⟨8229259955773720203900, 6572241609092209779800000, 3310576983055140143400000⟩,
  ⟨8229259955773720203900, 117181407852650631970000, 6572241609092212000200000⟩,
  ⟨8229259955773720203900, 6572241609092209779800000, 117181407852650371760000⟩,
  ⟨8229259955773720203900, 3310576983055140143400000, 6572241609092210890000000⟩,
  ⟨8229259955773720203900, 117181407852648689080000, 3310576983055141808700000⟩,
  ⟨18559524354637363733000, 1711659603535229945400000, 1198251592753852706700000⟩,
  ⟨18559524354637363733000, 7090088803710916654000000, 1711659603535230500500000⟩,
  ⟨18559524354637363733000, 1198251592753853400600000, 7090088803710917764200000⟩,
  ⟨18559524354637363733000, 7090088803710917764200000, 1198251592753852706700000⟩,
  ⟨18559524354637363733000, 1711659603535231055600000, 7090088803710917764200000⟩,
  ⟨18559524354637363733000, 1198251592753850625100000, 1711659603535232721000000⟩,
  ⟨7092878039308043742300, 2148380935404156366600000, 118084740509011697910000⟩,
  ⟨7092878039308043742300, 7733534324086831501800000, 2148380935404156366600000⟩,
  ⟨7092878039308043742300, 118084740509011854040000, 7733534324086833722200000⟩,
  ⟨7092878039308043742300, 7733534324086831501800000, 118084740509011697910000⟩,
  ⟨7092878039308043742300, 2148380935404157199300000, 7733534324086832612000000⟩,
  ⟨7092878039308043742300, 118084740509009633590000, 2148380935404159419700000⟩,
  ⟨6445290977854571624500, 1640325957882372565100000, 118982357159540252930000⟩,
  ⟨6445290977854571624500, 8240691684958086904400000, 1640325957882372842600000⟩,
  ⟨6445290977854571624500, 118982357159541640710000, 8240691684958088014700000⟩,
  ⟨6445290977854571624500, 8240691684958086904400000, 118982357159540252930000⟩,
  ⟨6445290977854571624500, 1640325957882373675300000, 8240691684958088014700000⟩,
  ⟨6445290977854571624500, 118982357159537754930000, 1640325957882375895700000⟩,
  ⟨7807450274528932639800, 2705995205192744390600000, 118476002079960143070000⟩,
  ⟨7807450274528932639800, 7175528792727294824500000, 2705995205192744945700000⟩,
  ⟨7807450274528932639800, 118476002079960784920000, 7175528792727297045000000⟩,
  ⟨7807450274528932639800, 7175528792727295934700000, 118476002079960143070000⟩,
  ⟨7807450274528932639800, 2705995205192744945700000, 7175528792727297045000000⟩,
  ⟨7807450274528932639800, 118476002079958286920000, 2705995205192747721200000⟩,
  ⟨8476359454730019848300, 3948815299054212468700000, 115294467270000370460000⟩,
  ⟨8476359454730019848300, 5935890233675786831200000, 3948815299054213023800000⟩,
  ⟨8476359454730019848300, 115294467270000144940000, 5935890233675789051700000⟩,
  ⟨8476359454730019848300, 5935890233675787941400000, 115294467270000370460000⟩,
  ⟨8476359454730019848300, 3948815299054213023800000, 5935890233675787941400000⟩,
  ⟨8476359454730019848300, 115294467269998757160000, 3948815299054215244300000⟩,
  ⟨3744154306019896786200, 4989185291486734064000000, 21629417026531555339000⟩,
  ⟨3744154306019896786200, 4989185291486734064000000, 4989185291486735174300000⟩,
  ⟨3744154306019896786200, 21629417026531316814000, 4989185291486736284500000⟩,
  ⟨2264011362839586085800, 976801440609630089450000, 22497058285754815109000⟩,
  ⟨2264011362839586085800, 9000701501104615420700000, 976801440609629811900000⟩,
  ⟨2264011362839586085800, 22497058285755877627000, 9000701501104616530900000⟩,
  ⟨2264011362839586085800, 9000701501104615420700000, 22497058285754815109000⟩,
  ⟨2264011362839586085800, 976801440609630922120000, 9000701501104616530900000⟩,
  ⟨2264011362839586085800, 22497058285752269402000, 976801440609633142560000⟩,
  ⟨3726699155331832883500, 4316631884764960958000000, 21780831191386446251000⟩,
  ⟨3726699155331832883500, 5661587284043652079600000, 4316631884764962068200000⟩,
  ⟨3726699155331832883500, 21780831191386407220000, 5661587284043654300100000⟩,
  ⟨3726699155331832883500, 5661587284043652079600000, 21780831191386446251000⟩,
  ⟨3726699155331832883500, 4316631884764961513100000, 5661587284043653189900000⟩,
  ⟨3726699155331832883500, 21780831191385574552000, 4316631884764963733600000⟩,
  ⟨2661740736293357451600, 1403238605725802834500000, 22594310974726021513000⟩,
  ⟨2661740736293357451600, 8574167083299470970600000, 1403238605725803112000000⟩,
  ⟨2661740736293357451600, 22594310974726194985000, 8574167083299473191000000⟩,
  ⟨2661740736293357451600, 8574167083299470970600000, 22594310974726021513000⟩,
  ⟨2661740736293357451600, 1403238605725802834500000, 8574167083299473191000000⟩,
  ⟨2661740736293357451600, 22594310974723835761000, 1403238605725806442700000⟩,
  ⟨18160699278318768839000, 1249745067489112931900000, 1249745067489115568600000⟩,
  ⟨18160699278318768839000, 7500509865021771638300000, 1249745067489113070600000⟩,
  ⟨18160699278318768839000, 1249745067489116401300000, 7500509865021771638300000⟩,
  ⟨3288098418131979276700, 2437969001075016850500000, 22489510449105816654000⟩,
  ⟨3288098418131979276700, 7539541488475877129000000, 2437969001075016850500000⟩,
  ⟨3288098418131979276700, 22489510449106298040000, 7539541488475879349500000⟩,
  ⟨3288098418131979276700, 7539541488475877129000000, 22489510449105816654000⟩,
  ⟨3288098418131979276700, 2437969001075017683200000, 7539541488475878239200000⟩,
  ⟨3288098418131979276700, 22489510449104077594000, 2437969001075019903600000⟩,
  ⟨1810345255653384572100, 619939934379152152170000, 22107829440679788516000⟩,
  ⟨1810345255653384572100, 9357952236180167027200000, 619939934379151805220000⟩,
  ⟨1810345255653384572100, 22107829440680681898000, 9357952236180170357800000⟩,
  ⟨1810345255653384572100, 9357952236180167027200000, 22107829440679788516000⟩,
  ⟨1810345255653384572100, 619939934379152846060000, 9357952236180170357800000⟩,
  ⟨1810345255653384572100, 22107829440677108368000, 619939934379154997110000⟩,
  ⟨3530059728352464274700, 3029504928419904374900000, 22499314295439339952000⟩,
  ⟨3530059728352464274700, 6947995757284657347700000, 3029504928419904374900000⟩,
  ⟨3530059728352464274700, 22499314295439942768000, 6947995757284657347700000⟩,
  ⟨3530059728352464274700, 6947995757284656237500000, 22499314295439339952000⟩,
  ⟨3530059728352464274700, 3029504928419904930000000, 6947995757284657347700000⟩,
  ⟨3530059728352464274700, 22499314295437722322000, 3029504928419907150400000⟩,
  ⟨3009385511099854984600, 1892661005029102894200000, 22640392620408228766000⟩,
  ⟨3009385511099854984600, 8084698602350488538800000, 1892661005029102894200000⟩,
  ⟨3009385511099854984600, 22640392620409399704000, 8084698602350489649000000⟩,
  ⟨3009385511099854984600, 8084698602350489649000000, 22640392620408228766000⟩,
  ⟨3009385511099854984600, 1892661005029104281900000, 8084698602350489649000000⟩,
  ⟨3009385511099854984600, 22640392620405930257000, 1892661005029106224800000⟩,
  ⟨3663196732748325197500, 3659190279368090825700000, 22135119210076217681000⟩,
  ⟨3663196732748325197500, 6318674601421832015500000, 3659190279368090825700000⟩,
  ⟨3663196732748325197500, 22135119210076048546000, 6318674601421835346200000⟩,
  ⟨3663196732748325197500, 6318674601421833125800000, 22135119210076217681000⟩,
  ⟨3663196732748325197500, 3659190279368091380800000, 6318674601421833125800000⟩,
  ⟨3663196732748325197500, 22135119210074660767000, 3659190279368093601200000⟩,
  ⟨446268307090295687630, 26050966947360060244000, 26050966947363256472000⟩,
  ⟨446268307090295687630, 9947898066105276271300000, 26050966947360051570000⟩,
  ⟨446268307090295687630, 26050966947365195026000, 9947898066105276271300000⟩]

end Verif
