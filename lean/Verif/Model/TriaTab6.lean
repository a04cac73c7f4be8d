import Verif.Model.TriaTabBase

/-! Generated by tools/quad_tables.py from /repo/lib/lf/quad/quad_rules_tria.cc. -/

namespace Verif

/-- `HardcodedQuadRule<kTria, 45>()`; /repo/lib/lf/quad/quad_rules_tria.cc:17195-18311. -/
def triaTab45 : List TabRow := [
  ⟨971532123877306627580, 126048038307361616460000, 72924295508433809032000⟩,
  ⟨971532123877306627580, 9801027666184203290800000, 126048038307361633810000⟩,
  ⟨971532123877306627580, 72924295508435266200000, 9801027666184205511300000⟩,
  ⟨971532123877306627580, 9801027666184204401000000, 72924295508433809032000⟩,
  ⟨971532123877306627580, 126048038307362553210000, 9801027666184205511300000⟩,
  ⟨971532123877306627580, 72924295508431024801000, 126048038307365484890000⟩,
  ⟨296832401489166389260, 46054766314412793130000, 13499971821104976046000⟩,
  ⟨296832401489166389260, 9940445261864481185700000, 46054766314412888539000⟩,
  ⟨296832401489166389260, 13499971821106515613000, 9940445261864482295900000⟩,
  ⟨296832401489166389260, 9940445261864482295900000, 13499971821104976046000⟩,
  ⟨296832401489166389260, 46054766314413408956000, 9940445261864484516300000⟩,
  ⟨296832401489166389260, 13499971821102118089000, 46054766314416097778000⟩,
  ⟨2403443537513318042200, 679464966039111523120000, 68591759380605367077000⟩,
  ⟨2403443537513318042200, 9251943274580282095000000, 679464966039111384340000⟩,
  ⟨2403443537513318042200, 68591759380606798224000, 9251943274580284315400000⟩,
  ⟨2403443537513318042200, 9251943274580283205200000, 68591759380605367077000⟩,
  ⟨2403443537513318042200, 679464966039112217010000, 9251943274580284315400000⟩,
  ⟨2403443537513318042200, 68591759380603120611000, 679464966039114576240000⟩,
  ⟨1150624667501121291700, 693380043634408277380000, 12297679959348988867000⟩,
  ⟨1150624667501121291700, 9294322276406241645200000, 693380043634408416150000⟩,
  ⟨1150624667501121291700, 12297679959349938628000, 9294322276406243865700000⟩,
  ⟨1150624667501121291700, 9294322276406242755400000, 12297679959348988867000⟩,
  ⟨1150624667501121291700, 693380043634408416150000, 9294322276406243865700000⟩,
  ⟨1150624667501121291700, 12297679959346885514000, 693380043634411191710000⟩,
  ⟨6472313585340723962300, 4682708598709479641500000, 87801002006947515000000⟩,
  ⟨6472313585340723962300, 5229490399283572843500000, 4682708598709480196700000⟩,
  ⟨6472313585340723962300, 87801002006946959888000, 5229490399283575063900000⟩,
  ⟨6472313585340723962300, 5229490399283571733200000, 87801002006947515000000⟩,
  ⟨6472313585340723962300, 4682708598709479641500000, 5229490399283573953700000⟩,
  ⟨6472313585340723962300, 87801002006946682332000, 4682708598709482417100000⟩,
  ⟨2302604491453431314800, 2504951703352215064400000, 16830263611802771025000⟩,
  ⟨2302604491453431314800, 7478218033035981537900000, 2504951703352215064400000⟩,
  ⟨2302604491453431314800, 16830263611803397694000, 7478218033035983758300000⟩,
  ⟨2302604491453431314800, 7478218033035982648100000, 16830263611802771025000⟩,
  ⟨2302604491453431314800, 2504951703352215064400000, 7478218033035983758300000⟩,
  ⟨2302604491453431314800, 16830263611800344581000, 2504951703352217840000000⟩,
  ⟨775345040014331513080, 179231013398374397490000, 17579725835351468592000⟩,
  ⟨775345040014331513080, 9803189260766274060200000, 179231013398374154630000⟩,
  ⟨775345040014331513080, 17579725835353832153000, 9803189260766274060200000⟩,
  ⟨775345040014331513080, 9803189260766274060200000, 17579725835351468592000⟩,
  ⟨775345040014331513080, 179231013398373772990000, 9803189260766277390900000⟩,
  ⟨775345040014331513080, 17579725835348974927000, 179231013398377381220000⟩,
  ⟨2632160084498377078900, 3594568419950527893300000, 14756136531629470907000⟩,
  ⟨2632160084498377078900, 6390675443517842557700000, 3594568419950528448400000⟩,
  ⟨2632160084498377078900, 14756136531630104081000, 6390675443517843668000000⟩,
  ⟨2632160084498377078900, 6390675443517842557700000, 14756136531629470907000⟩,
  ⟨2632160084498377078900, 3594568419950528448400000, 6390675443517842557700000⟩,
  ⟨2632160084498377078900, 14756136531628438746000, 3594568419950530113700000⟩,
  ⟨20388014004386009227000, 2211539847849474937900000, 1536631274625925303000000⟩,
  ⟨20388014004386009227000, 6251828877524598926400000, 2211539847849475493000000⟩,
  ⟨20388014004386009227000, 1536631274625925858100000, 6251828877524600036600000⟩,
  ⟨20388014004386009227000, 6251828877524600036600000, 1536631274625925303000000⟩,
  ⟨20388014004386009227000, 2211539847849475215500000, 6251828877524601146800000⟩,
  ⟨20388014004386009227000, 1536631274625923360100000, 2211539847849476880800000⟩,
  ⟨13636685777816597107000, 2389731948786961157600000, 2276252161372492588400000⟩,
  ⟨13636685777816597107000, 5334015889840546531500000, 2389731948786961712700000⟩,
  ⟨13636685777816597107000, 2276252161372492310900000, 5334015889840547641800000⟩,
  ⟨13636685777816597107000, 5334015889840546531500000, 2276252161372492588400000⟩,
  ⟨13636685777816597107000, 2389731948786961157600000, 5334015889840547641800000⟩,
  ⟨13636685777816597107000, 2276252161372491200600000, 2389731948786963100500000⟩,
  ⟨16012085751762885569000, 1298066533002766587100000, 1298066533002769085100000⟩,
  ⟨16012085751762885569000, 7403866933994464050200000, 1298066533002766587100000⟩,
  ⟨16012085751762885569000, 1298066533002769640200000, 7403866933994465160400000⟩,
  ⟨19089191800209103118000, 2265228859811757589100000, 1142030377515118599900000⟩,
  ⟨19089191800209103118000, 6592740762673122700800000, 2265228859811757866600000⟩,
  ⟨19089191800209103118000, 1142030377515119155000000, 6592740762673124921300000⟩,
  ⟨19089191800209103118000, 6592740762673123811100000, 1142030377515118599900000⟩,
  ⟨19089191800209103118000, 2265228859811758144200000, 6592740762673124921300000⟩,
  ⟨19089191800209103118000, 1142030377515116795800000, 2265228859811760087100000⟩,
  ⟨16217949642443299681000, 2395905240377901868100000, 803750594685513908290000⟩,
  ⟨16217949642443299681000, 6800344164936583668500000, 2395905240377902145600000⟩,
  ⟨16217949642443299681000, 803750594685514463400000, 6800344164936585889000000⟩,
  ⟨16217949642443299681000, 6800344164936584778800000, 803750594685513908290000⟩,
  ⟨16217949642443299681000, 2395905240377902423200000, 6800344164936584778800000⟩,
  ⟨16217949642443299681000, 803750594685512242950000, 2395905240377904643600000⟩,
  ⟨9424828591924543997100, 1782914029925922738700000, 306183636824900254350000⟩,
  ⟨9424828591924543997100, 7910902333249176798800000, 1782914029925923016200000⟩,
  ⟨9424828591924543997100, 306183636824901017630000, 7910902333249177909000000⟩,
  ⟨9424828591924543997100, 7910902333249176798800000, 306183636824900254350000⟩,
  ⟨9424828591924543997100, 1782914029925923293800000, 7910902333249177909000000⟩,
  ⟨9424828591924543997100, 306183636824898519620000, 1782914029925925514200000⟩,
  ⟨23186744205609894146000, 2063496656308830279300000, 2063496656308833054900000⟩,
  ⟨23186744205609894146000, 5873006687382336110700000, 2063496656308831389600000⟩,
  ⟨23186744205609894146000, 2063496656308831944700000, 5873006687382338331100000⟩,
  ⟨20435302327436507402000, 1750845888069398337300000, 1750845888069400835300000⟩,
  ⟨20435302327436507402000, 6498308223861201105000000, 1750845888069399169900000⟩,
  ⟨20435302327436507402000, 1750845888069401667900000, 6498308223861201105000000⟩,
  ⟨10903611938034914620000, 2825866891204175113100000, 269421027814230988620000⟩,
  ⟨10903611938034914620000, 6904712080981594279900000, 2825866891204175113100000⟩,
  ⟨10903611938034914620000, 269421027814230606980000, 6904712080981596500400000⟩,
  ⟨10903611938034914620000, 6904712080981593169700000, 269421027814230988620000⟩,
  ⟨10903611938034914620000, 2825866891204175113100000, 6904712080981594279900000⟩,
  ⟨10903611938034914620000, 269421027814229496760000, 2825866891204177333600000⟩,
  ⟨9172906195805227052100, 1372571102587295532900000, 327972135469326506190000⟩,
  ⟨9172906195805227052100, 8299456761943376781300000, 1372571102587295810400000⟩,
  ⟨9172906195805227052100, 327972135469327685800000, 8299456761943379001800000⟩,
  ⟨9172906195805227052100, 8299456761943377891600000, 327972135469326506190000⟩,
  ⟨9172906195805227052100, 1372571102587295532900000, 8299456761943380112000000⟩,
  ⟨9172906195805227052100, 327972135469324493910000, 1372571102587298586000000⟩,
  ⟨2415567615160131738600, 4995045768679594044800000, 9908462640811379045600⟩,
  ⟨2415567615160131738600, 4995045768679594044800000, 4995045768679594600000000⟩,
  ⟨2415567615160131738600, 9908462640810800081700, 4995045768679596820400000⟩,
  ⟨8136698977163551831100, 1002544152365696106300000, 327271127336489636720000⟩,
  ⟨8136698977163551831100, 8670184720297813285600000, 1002544152365696245000000⟩,
  ⟨8136698977163551831100, 327271127336490330610000, 8670184720297815506000000⟩,
  ⟨8136698977163551831100, 8670184720297813285600000, 327271127336489636720000⟩,
  ⟨8136698977163551831100, 1002544152365697494000000, 8670184720297815506000000⟩,
  ⟨8136698977163551831100, 327271127336487485660000, 1002544152365699853300000⟩,
  ⟨4142664105863625378100, 517074765599652777510000, 151601013138725621010000⟩,
  ⟨4142664105863625378100, 9331324221261620977000000, 517074765599652846900000⟩,
  ⟨4142664105863625378100, 151601013138727425120000, 9331324221261622087200000⟩,
  ⟨4142664105863625378100, 9331324221261622087200000, 151601013138725621010000⟩,
  ⟨4142664105863625378100, 517074765599653818350000, 9331324221261622087200000⟩,
  ⟨4142664105863625378100, 151601013138723261790000, 517074765599656038790000⟩,
  ⟨25537450433838460549000, 2606148551376569200100000, 1708846529529775559700000⟩,
  ⟨25537450433838460549000, 5685004919093654685000000, 2606148551376569200100000⟩,
  ⟨25537450433838460549000, 1708846529529775559700000, 5685004919093656905500000⟩,
  ⟨25537450433838460549000, 5685004919093655795200000, 1708846529529775559700000⟩,
  ⟨25537450433838460549000, 2606148551376569200100000, 5685004919093656905500000⟩,
  ⟨25537450433838460549000, 1708846529529773616800000, 2606148551376570865500000⟩,
  ⟨11195566794457779188000, 2272143249599573033800000, 286632862041672348270000⟩,
  ⟨11195566794457779188000, 7441223888358753368900000, 2272143249599573311400000⟩,
  ⟨11195566794457779188000, 286632862041673042160000, 7441223888358755589300000⟩,
  ⟨11195566794457779188000, 7441223888358755589300000, 286632862041672348270000⟩,
  ⟨11195566794457779188000, 2272143249599573589000000, 7441223888358755589300000⟩,
  ⟨11195566794457779188000, 286632862041670266610000, 2272143249599576364500000⟩,
  ⟨8200861822105200366400, 3110404872350508997900000, 126956715659609486320000⟩,
  ⟨8200861822105200366400, 6762638411989881914700000, 3110404872350508997900000⟩,
  ⟨8200861822105200366400, 126956715659609087330000, 6762638411989884135200000⟩,
  ⟨8200861822105200366400, 6762638411989880804500000, 126956715659609486320000⟩,
  ⟨8200861822105200366400, 3110404872350510108200000, 6762638411989881914700000⟩,
  ⟨8200861822105200366400, 126956715659607977110000, 3110404872350511773500000⟩,
  ⟨8463050702776201989600, 552204190605027900320000, 552204190605031161600000⟩,
  ⟨8463050702776201989600, 8895591618789940868700000, 552204190605028247260000⟩,
  ⟨8463050702776201989600, 552204190605030675880000, 8895591618789943089100000⟩,
  ⟨18358356965888702073000, 1856238762990532198400000, 879015352488810713940000⟩,
  ⟨18358356965888702073000, 7264745884520656948900000, 1856238762990532198400000⟩,
  ⟨18358356965888702073000, 879015352488811685380000, 7264745884520658059100000⟩,
  ⟨18358356965888702073000, 7264745884520656948900000, 879015352488810713940000⟩,
  ⟨18358356965888702073000, 1856238762990533031100000, 7264745884520658059100000⟩,
  ⟨18358356965888702073000, 879015352488808077160000, 1856238762990534696400000⟩,
  ⟨7065024707997161809000, 658626437608177683900000, 307203461767424183810000⟩,
  ⟨7065024707997161809000, 9034170100624399069000000, 658626437608177267570000⟩,
  ⟨7065024707997161809000, 307203461767425189950000, 9034170100624400179300000⟩,
  ⟨7065024707997161809000, 9034170100624397958800000, 307203461767424183810000⟩,
  ⟨7065024707997161809000, 658626437608177961460000, 9034170100624400179300000⟩,
  ⟨7065024707997161809000, 307203461767421789900000, 658626437608180875790000⟩,
  ⟨3822210004310395070300, 3015904700953622730200000, 28145506398763843817000⟩,
  ⟨3822210004310395070300, 6955949792647613261200000, 3015904700953623285300000⟩,
  ⟨3822210004310395070300, 28145506398764563727000, 6955949792647615481700000⟩,
  ⟨3822210004310395070300, 6955949792647613261200000, 28145506398763843817000⟩,
  ⟨3822210004310395070300, 3015904700953622175100000, 6955949792647615481700000⟩,
  ⟨3822210004310395070300, 28145506398761788169000, 3015904700953625505700000⟩,
  ⟨19770158130266025746000, 2925426576542363155100000, 798394163722915967130000⟩,
  ⟨19770158130266025746000, 6276179259734721016500000, 2925426576542363155100000⟩,
  ⟨19770158130266025746000, 798394163722916383460000, 6276179259734722126800000⟩,
  ⟨19770158130266025746000, 6276179259734721016500000, 798394163722915967130000⟩,
  ⟨19770158130266025746000, 2925426576542363710200000, 6276179259734722126800000⟩,
  ⟨19770158130266025746000, 798394163722914163020000, 2925426576542365930700000⟩,
  ⟨3224167724785580732900, 273024847528849125280000, 133211979027671369860000⟩,
  ⟨3224167724785580732900, 9593763173443479175300000, 273024847528848778330000⟩,
  ⟨3224167724785580732900, 133211979027673121930000, 9593763173443480285500000⟩,
  ⟨3224167724785580732900, 9593763173443479175300000, 133211979027671369860000⟩,
  ⟨3224167724785580732900, 273024847528850478360000, 9593763173443480285500000⟩,
  ⟨3224167724785580732900, 133211979027668681040000, 273024847528853253920000⟩,
  ⟨34168776878490659220000, 2991527658365938924200000, 2991527658365940589600000⟩,
  ⟨34168776878490659220000, 4016944683268121041300000, 2991527658365940589600000⟩,
  ⟨34168776878490659220000, 2991527658365938924200000, 4016944683268122151500000⟩,
  ⟨7773784512690392906700, 3715719205775442346400000, 96021860181155580666000⟩,
  ⟨7773784512690392906700, 6188258934043402437200000, 3715719205775442346400000⟩,
  ⟨7773784512690392906700, 96021860181155216374000, 6188258934043404657600000⟩,
  ⟨7773784512690392906700, 6188258934043402437200000, 96021860181155580666000⟩,
  ⟨7773784512690392906700, 3715719205775442346400000, 6188258934043403547400000⟩,
  ⟨7773784512690392906700, 96021860181154383707000, 3715719205775444566900000⟩,
  ⟨3132398962406130697000, 2010073039936871031100000, 25024373852327069963000⟩,
  ⟨3132398962406130697000, 7964902586210802493100000, 2010073039936871308600000⟩,
  ⟨3132398962406130697000, 25024373852327030932000, 7964902586210804713600000⟩,
  ⟨3132398962406130697000, 7964902586210802493100000, 25024373852327069963000⟩,
  ⟨3132398962406130697000, 2010073039936871586200000, 7964902586210802493100000⟩,
  ⟨3132398962406130697000, 25024373852325226819000, 2010073039936874084200000⟩,
  ⟨29959028750869334118000, 2931831293722664266700000, 2017308280659965424900000⟩,
  ⟨29959028750869334118000, 5050860425617370586000000, 2931831293722664821800000⟩,
  ⟨29959028750869334118000, 2017308280659965147300000, 5050860425617371696200000⟩,
  ⟨29959028750869334118000, 5050860425617370586000000, 2017308280659965424900000⟩,
  ⟨29959028750869334118000, 2931831293722664266700000, 5050860425617371696200000⟩,
  ⟨29959028750869334118000, 2017308280659964314600000, 2931831293722665932000000⟩,
  ⟨15292089072820073351000, 2333318911036225684600000, 526776823006486205610000⟩,
  ⟨15292089072820073351000, 7139904265957287554700000, 2333318911036225962200000⟩,
  ⟨15292089072820073351000, 526776823006486760730000, 7139904265957289775100000⟩,
  ⟨15292089072820073351000, 7139904265957288664900000, 526776823006486205610000⟩,
  ⟨15292089072820073351000, 2333318911036226239700000, 7139904265957288664900000⟩,
  ⟨15292089072820073351000, 526776823006484262720000, 2333318911036229015300000⟩,
  ⟨14982039520765651902000, 1792991418970043271400000, 557691461107685942930000⟩,
  ⟨14982039520765651902000, 7649317119922270924400000, 1792991418970043271400000⟩,
  ⟨14982039520765651902000, 557691461107686636820000, 7649317119922272034700000⟩,
  ⟨14982039520765651902000, 7649317119922270924400000, 557691461107685942930000⟩,
  ⟨14982039520765651902000, 1792991418970043549000000, 7649317119922272034700000⟩,
  ⟨14982039520765651902000, 557691461107683722490000, 1792991418970046047000000⟩,
  ⟨34462523992934810009000, 3669822772564582114000000, 2660354454870835772000000⟩,
  ⟨34462523992934810009000, 3669822772564581558900000, 3669822772564583224200000⟩,
  ⟨34462523992934810009000, 2660354454870834661800000, 3669822772564583779300000⟩,
  ⟨16166867916586153894000, 2934353311290929800000000, 482367013092171934010000⟩,
  ⟨16166867916586153894000, 6583279675616897641500000, 2934353311290930355100000⟩,
  ⟨16166867916586153894000, 482367013092171448290000, 6583279675616900972200000⟩,
  ⟨16166867916586153894000, 6583279675616898751800000, 482367013092171934010000⟩,
  ⟨16166867916586153894000, 2934353311290930355100000, 6583279675616899862000000⟩,
  ⟨16166867916586153894000, 482367013092170615620000, 2934353311290932020400000⟩,
  ⟨33231821824899888777000, 3298405962756192355600000, 2336975835531221734600000⟩,
  ⟨33231821824899888777000, 4364618201712586187400000, 3298405962756193465800000⟩,
  ⟨33231821824899888777000, 2336975835531220346800000, 4364618201712587852700000⟩,
  ⟨33231821824899888777000, 4364618201712586187400000, 2336975835531221734600000⟩,
  ⟨33231821824899888777000, 3298405962756192355600000, 4364618201712587297600000⟩,
  ⟨33231821824899888777000, 2336975835531220624400000, 3298405962756194020900000⟩,
  ⟨15974524664544324445000, 1381756936115275946600000, 926621506087761254160000⟩,
  ⟨15974524664544324445000, 7691621557796961550200000, 1381756936115276224200000⟩,
  ⟨15974524664544324445000, 926621506087762503160000, 7691621557796963770700000⟩,
  ⟨15974524664544324445000, 7691621557796962660400000, 926621506087761254160000⟩,
  ⟨15974524664544324445000, 1381756936115277056800000, 7691621557796963770700000⟩,
  ⟨15974524664544324445000, 926621506087758756150000, 1381756936115278999700000⟩,
  ⟨30809958414888733748000, 3585128657761010861900000, 1734547681030723931300000⟩,
  ⟨30809958414888733748000, 4680323661208265484400000, 3585128657761011972100000⟩,
  ⟨30809958414888733748000, 1734547681030722821000000, 4680323661208267149700000⟩,
  ⟨30809958414888733748000, 4680323661208264929300000, 1734547681030723931300000⟩,
  ⟨30809958414888733748000, 3585128657761011417000000, 4680323661208266594600000⟩,
  ⟨30809958414888733748000, 1734547681030722543500000, 3585128657761013082400000⟩,
  ⟨10919088656448762507000, 4203377834665487644500000, 178508936465828042810000⟩,
  ⟨10919088656448762507000, 5618113228868684139200000, 4203377834665488199700000⟩,
  ⟨10919088656448762507000, 178508936465827106050000, 5618113228868687469800000⟩,
  ⟨10919088656448762507000, 5618113228868684139200000, 178508936465828042810000⟩,
  ⟨10919088656448762507000, 4203377834665487644500000, 5618113228868685249400000⟩,
  ⟨10919088656448762507000, 178508936465827106050000, 4203377834665490420100000⟩,
  ⟨24191143767986287433000, 2790511330034806114500000, 1199466924958471625300000⟩,
  ⟨24191143767986287433000, 6010021745006721705100000, 2790511330034807224700000⟩,
  ⟨24191143767986287433000, 1199466924958471070200000, 6010021745006723925500000⟩,
  ⟨24191143767986287433000, 6010021745006721705100000, 1199466924958471625300000⟩,
  ⟨24191143767986287433000, 2790511330034806669600000, 6010021745006722815300000⟩,
  ⟨24191143767986287433000, 1199466924958469682400000, 2790511330034808890100000⟩,
  ⟨5854717597540563854900, 934626722493710621050000, 139846172517608963860000⟩,
  ⟨5854717597540563854900, 8925527104988680848800000, 934626722493710759830000⟩,
  ⟨5854717597540563854900, 139846172517609779180000, 8925527104988681959000000⟩,
  ⟨5854717597540563854900, 8925527104988680848800000, 139846172517608963860000⟩,
  ⟨5854717597540563854900, 934626722493711037390000, 8925527104988681959000000⟩,
  ⟨5854717597540563854900, 139846172517606656680000, 934626722493713951720000⟩,
  ⟨27037484282199210697000, 3874089876890198791400000, 1193577643150774969500000⟩,
  ⟨27037484282199210697000, 4932332479959025683900000, 3874089876890199901600000⟩,
  ⟨27037484282199210697000, 1193577643150774692000000, 4932332479959027904400000⟩,
  ⟨27037484282199210697000, 4932332479959026794200000, 1193577643150774969500000⟩,
  ⟨27037484282199210697000, 3874089876890198791400000, 4932332479959027349300000⟩,
  ⟨27037484282199210697000, 1193577643150773859300000, 3874089876890201011900000⟩,
  ⟨22666945618745127158000, 4071846956615201573700000, 735846549853617637460000⟩,
  ⟨22666945618745127158000, 5192306493531181343900000, 4071846956615202128800000⟩,
  ⟨22666945618745127158000, 735846549853617082350000, 5192306493531183564400000⟩,
  ⟨22666945618745127158000, 5192306493531181343900000, 735846549853617637460000⟩,
  ⟨22666945618745127158000, 4071846956615202128800000, 5192306493531181343900000⟩,
  ⟨22666945618745127158000, 735846549853616527240000, 4071846956615203794200000⟩,
  ⟨7634222222683195637600, 1876405833897097086300000, 127167478485407797750000⟩,
  ⟨7634222222683195637600, 7996426687617494977200000, 1876405833897097086300000⟩,
  ⟨7634222222683195637600, 127167478485408214080000, 7996426687617497197600000⟩,
  ⟨7634222222683195637600, 7996426687617494977200000, 127167478485407797750000⟩,
  ⟨7634222222683195637600, 1876405833897096808700000, 7996426687617497197600000⟩,
  ⟨7634222222683195637600, 127167478485405577300000, 1876405833897099861800000⟩,
  ⟨31573284965164529967000, 2649216423903805184300000, 2649216423903806294500000⟩,
  ⟨31573284965164529967000, 4701567152192388521200000, 2649216423903805739400000⟩,
  ⟨31573284965164529967000, 2649216423903806294500000, 4701567152192389631400000⟩,
  ⟨2992778793760558883800, 1522255260382762986900000, 24403804076878502990000⟩,
  ⟨2992778793760558883800, 8453340935540357703500000, 1522255260382763264500000⟩,
  ⟨2992778793760558883800, 24403804076879032081000, 8453340935540361034100000⟩,
  ⟨2992778793760558883800, 8453340935540358813700000, 24403804076878502990000⟩,
  ⟨2992778793760558883800, 1522255260382763264500000, 8453340935540361034100000⟩,
  ⟨2992778793760558883800, 24403804076876534079000, 1522255260382766040000000⟩,
  ⟨21106687157036330832000, 1741420017865633607100000, 1298906259772944771200000⟩,
  ⟨21106687157036330832000, 6959673722361421344100000, 1741420017865634162200000⟩,
  ⟨21106687157036330832000, 1298906259772944493700000, 6959673722361423564600000⟩,
  ⟨21106687157036330832000, 6959673722361421344100000, 1298906259772944771200000⟩,
  ⟨21106687157036330832000, 1741420017865633607100000, 6959673722361423564600000⟩,
  ⟨21106687157036330832000, 1298906259772942550800000, 1741420017865636382700000⟩,
  ⟨32791537500989464265000, 3984690684139450267400000, 2030618631721099465200000⟩,
  ⟨32791537500989464265000, 3984690684139450267400000, 3984690684139451377600000⟩,
  ⟨32791537500989464265000, 2030618631721098077400000, 3984690684139451932700000⟩,
  ⟨27572811156697505687000, 3214081551755261223500000, 1438806303873045311400000⟩,
  ⟨27572811156697505687000, 5347112144371692910000000, 3214081551755262333700000⟩,
  ⟨27572811156697505687000, 1438806303873044756300000, 5347112144371695130500000⟩,
  ⟨27572811156697505687000, 5347112144371692910000000, 1438806303873045311400000⟩,
  ⟨27572811156697505687000, 3214081551755261778600000, 5347112144371694020300000⟩,
  ⟨27572811156697505687000, 1438806303873043368500000, 3214081551755263999000000⟩,
  ⟨11685889049553343285000, 888043361734264791170000, 588598092883567541870000⟩,
  ⟨11685889049553343285000, 8523358545382166973100000, 888043361734264513620000⟩,
  ⟨11685889049553343285000, 588598092883568790870000, 8523358545382169193500000⟩,
  ⟨11685889049553343285000, 8523358545382166973100000, 588598092883567541870000⟩,
  ⟨11685889049553343285000, 888043361734265346290000, 8523358545382169193500000⟩,
  ⟨11685889049553343285000, 588598092883564696920000, 888043361734267983070000⟩,
  ⟨13939944763398509891000, 1304289155517122100700000, 602973413848093622860000⟩,
  ⟨13939944763398509891000, 8092737430634784345800000, 1304289155517122100700000⟩,
  ⟨13939944763398509891000, 602973413848094108580000, 8092737430634785456000000⟩,
  ⟨13939944763398509891000, 8092737430634784345800000, 602973413848093622860000⟩,
  ⟨13939944763398509891000, 1304289155517122655900000, 8092737430634785456000000⟩,
  ⟨13939944763398509891000, 602973413848091333020000, 1304289155517125431400000⟩,
  ⟨25084297429841086527000, 4526201907514941780200000, 947596184970116300890000⟩,
  ⟨25084297429841086527000, 4526201907514941780200000, 4526201907514942335300000⟩,
  ⟨25084297429841086527000, 947596184970115329450000, 4526201907514944000600000⟩,
  ⟨7152874976852851250700, 1368379127222100200000000, 132254525993588060300000⟩,
  ⟨7152874976852851250700, 8499366346784311687700000, 1368379127222100200000000⟩,
  ⟨7152874976852851250700, 132254525993589222570000, 8499366346784312797900000⟩,
  ⟨7152874976852851250700, 8499366346784311687700000, 132254525993588060300000⟩,
  ⟨7152874976852851250700, 1368379127222100755100000, 8499366346784312797900000⟩,
  ⟨7152874976852851250700, 132254525993585891900000, 1368379127222103530700000⟩,
  ⟨19860211209387248869000, 3528533591796705892700000, 572712595019886847040000⟩,
  ⟨19860211209387248869000, 5898753813183408301100000, 3528533591796706447900000⟩,
  ⟨19860211209387248869000, 572712595019885806200000, 5898753813183410521500000⟩,
  ⟨19860211209387248869000, 5898753813183407190800000, 572712595019886847040000⟩,
  ⟨19860211209387248869000, 3528533591796705892700000, 5898753813183409411300000⟩,
  ⟨19860211209387248869000, 572712595019885528650000, 3528533591796708113200000⟩,
  ⟨8115107146955448120400, 2463869002171421573900000, 109336475862860226650000⟩,
  ⟨8115107146955448120400, 7426794521965718320900000, 2463869002171421851400000⟩,
  ⟨8115107146955448120400, 109336475862859550110000, 7426794521965721651600000⟩,
  ⟨8115107146955448120400, 7426794521965718320900000, 109336475862860226650000⟩,
  ⟨8115107146955448120400, 2463869002171422684100000, 7426794521965718320900000⟩,
  ⟨8115107146955448120400, 109336475862857884780000, 2463869002171424904500000⟩,
  ⟨29412545630876536784000, 4268610495333074461600000, 1462779009333851076800000⟩,
  ⟨29412545630876536784000, 4268610495333074461600000, 4268610495333075016700000⟩,
  ⟨29412545630876536784000, 1462779009333849689100000, 4268610495333076682000000⟩,
  ⟨34707348271925167991000, 3333333333333332593200000, 3333333333333334258500000⟩,
  ⟨24154274389475475192000, 3435200440594712856200000, 959251650895475566070000⟩,
  ⟨24154274389475475192000, 5605547908509811438900000, 3435200440594713411400000⟩,
  ⟨24154274389475475192000, 959251650895475149740000, 5605547908509813659400000⟩,
  ⟨24154274389475475192000, 5605547908509811438900000, 959251650895475566070000⟩,
  ⟨24154274389475475192000, 3435200440594712856200000, 5605547908509812549100000⟩,
  ⟨24154274389475475192000, 959251650895474317070000, 3435200440594715076700000⟩,
  ⟨17698394080732534044000, 4162089636364642020200000, 396704297157567664640000⟩,
  ⟨17698394080732534044000, 5441206066477789482500000, 4162089636364642575300000⟩,
  ⟨17698394080732534044000, 396704297157567387090000, 5441206066477792813200000⟩,
  ⟨17698394080732534044000, 5441206066477789482500000, 396704297157567664640000⟩,
  ⟨17698394080732534044000, 4162089636364642575300000, 5441206066477791703000000⟩,
  ⟨17698394080732534044000, 396704297157566831980000, 4162089636364644240600000⟩,
  ⟨15685717310821363935000, 945724371334943636480000, 945724371334946550820000⟩,
  ⟨15685717310821363935000, 8108551257330108841300000, 945724371334943636480000⟩,
  ⟨15685717310821363935000, 945724371334947799820000, 8108551257330111061700000⟩,
  ⟨20465325739098374005000, 4729894708688973104000000, 540210582622053375750000⟩,
  ⟨20465325739098374005000, 4729894708688974214200000, 4729894708688973659100000⟩,
  ⟨20465325739098374005000, 540210582622052404300000, 4729894708688975879500000⟩,
  ⟨1835329947090308595000, 390118106999857716670000, 27950477505294156824000⟩,
  ⟨1835329947090308595000, 9581931415494847614800000, 390118106999857161550000⟩,
  ⟨1835329947090308595000, 27950477505295778791000, 9581931415494849835200000⟩,
  ⟨1835329947090308595000, 9581931415494847614800000, 27950477505294156824000⟩,
  ⟨1835329947090308595000, 390118106999858826890000, 9581931415494849835200000⟩,
  ⟨1835329947090308595000, 27950477505291303204000, 390118106999861671840000⟩,
  ⟨2854849547020912197700, 1071807141346060726600000, 26666116526768831804000⟩,
  ⟨2854849547020912197700, 8901526742127170432900000, 1071807141346060310300000⟩,
  ⟨2854849547020912197700, 26666116526771199702000, 8901526742127170432900000⟩,
  ⟨2854849547020912197700, 8901526742127171543100000, 26666116526768831804000⟩,
  ⟨2854849547020912197700, 1071807141346060032700000, 8901526742127173763600000⟩,
  ⟨2854849547020912197700, 26666116526766273087000, 1071807141346063779700000⟩,
  ⟨4380567695844115325500, 4264238197063260904500000, 25395300762577864562000⟩,
  ⟨4380567695844115325500, 5710366502174161196200000, 4264238197063261459600000⟩,
  ⟨4380567695844115325500, 25395300762577344145000, 5710366502174163416700000⟩,
  ⟨4380567695844115325500, 5710366502174161196200000, 25395300762577864562000⟩,
  ⟨4380567695844115325500, 4264238197063261459600000, 5710366502174162306500000⟩,
  ⟨4380567695844115325500, 25395300762576789033000, 4264238197063263680100000⟩,
  ⟨6256573426602302177200, 340851411567991424700000, 340851411567994477810000⟩,
  ⟨6256573426602302177200, 9318297176864013264800000, 340851411567991285920000⟩,
  ⟨6256573426602302177200, 340851411567995588040000, 9318297176864015485300000⟩,
  ⟨15435554874620842098000, 3519601313638296424800000, 287313755582887971060000⟩,
  ⟨15435554874620842098000, 6193084930778816055200000, 3519601313638295869700000⟩,
  ⟨15435554874620842098000, 287313755582887520030000, 6193084930778818275600000⟩,
  ⟨15435554874620842098000, 6193084930778816055200000, 287313755582887971060000⟩,
  ⟨15435554874620842098000, 3519601313638296979900000, 6193084930778817165400000⟩,
  ⟨15435554874620842098000, 287313755582886409810000, 3519601313638298645300000⟩,
  ⟨15279028851494166896000, 4869989968257814605400000, 260020063484370789200000⟩,
  ⟨15279028851494166896000, 4869989968257815160500000, 4869989968257815715600000⟩,
  ⟨15279028851494166896000, 260020063484369956530000, 4869989968257816825800000⟩]

/-- `HardcodedQuadRule<kTria, 46>()`; /repo/lib/lf/quad/quad_rules_tria.cc:18315-19476. -/
def triaTab46 : List TabRow := [
  ⟨7531811939497908090600, 4791627094810211318100000, 416745810379577918960000⟩,
  ⟨7531811939497908090600, 4791627094810211318100000, 4791627094810211873200000⟩,
  ⟨7531811939497908090600, 416745810379576808740000, 4791627094810213538500000⟩,
  ⟨22268540934664970282000, 3979697646407098221600000, 1541231491660772501300000⟩,
  ⟨22268540934664970282000, 4479070861932128999600000, 3979697646407099886900000⟩,
  ⟨22268540934664970282000, 1541231491660771391100000, 4479070861932131220100000⟩,
  ⟨22268540934664970282000, 4479070861932128444500000, 1541231491660772501300000⟩,
  ⟨22268540934664970282000, 3979697646407098776700000, 4479070861932130109800000⟩,
  ⟨22268540934664970282000, 1541231491660771391100000, 3979697646407100442000000⟩,
  ⟨21600047623208142034000, 4143076079881757856100000, 1131367059240234174100000⟩,
  ⟨21600047623208142034000, 4725556860878007969800000, 4143076079881758966300000⟩,
  ⟨21600047623208142034000, 1131367059240233341500000, 4725556860878009080000000⟩,
  ⟨21600047623208142034000, 4725556860878007414700000, 1131367059240234174100000⟩,
  ⟨21600047623208142034000, 4143076079881758966300000, 4725556860878008524900000⟩,
  ⟨21600047623208142034000, 1131367059240233619000000, 4143076079881760076500000⟩,
  ⟨15434398279694607533000, 3297282498766236913400000, 730183277797032820320000⟩,
  ⟨15434398279694607533000, 5972534223436729572400000, 3297282498766238023600000⟩,
  ⟨15434398279694607533000, 730183277797032959100000, 5972534223436731792800000⟩,
  ⟨15434398279694607533000, 5972534223436730682600000, 730183277797032820320000⟩,
  ⟨15434398279694607533000, 3297282498766236913400000, 5972534223436730682600000⟩,
  ⟨15434398279694607533000, 730183277797031571320000, 3297282498766239133800000⟩,
  ⟨17151129077401620904000, 2257592423300577577600000, 1098033768073635591000000⟩,
  ⟨17151129077401620904000, 6644373808625786415000000, 2257592423300578132700000⟩,
  ⟨17151129077401620904000, 1098033768073635174600000, 6644373808625789745700000⟩,
  ⟨17151129077401620904000, 6644373808625786415000000, 1098033768073635591000000⟩,
  ⟨17151129077401620904000, 2257592423300578410300000, 6644373808625787525300000⟩,
  ⟨17151129077401620904000, 1098033768073633648100000, 2257592423300580353200000⟩,
  ⟨6237345908226707641800, 486830795833199034270000, 486830795833202018000000⟩,
  ⟨6237345908226707641800, 9026338408333598462000000, 486830795833199173050000⟩,
  ⟨6237345908226707641800, 486830795833201879220000, 9026338408333600682500000⟩,
  ⟨10947581916500527446000, 4868494344525785000300000, 263011310948430311610000⟩,
  ⟨10947581916500527446000, 4868494344525785555400000, 4868494344525785000300000⟩,
  ⟨10947581916500527446000, 263011310948429721800000, 4868494344525787220800000⟩,
  ⟨18913809911956275429000, 3286993475605236581000000, 1028358753710729572900000⟩,
  ⟨18913809911956275429000, 5684647770684033707400000, 3286993475605237136100000⟩,
  ⟨18913809911956275429000, 1028358753710729711600000, 5684647770684034817600000⟩,
  ⟨18913809911956275429000, 5684647770684033707400000, 1028358753710729572900000⟩,
  ⟨18913809911956275429000, 3286993475605236581000000, 5684647770684034817600000⟩,
  ⟨18913809911956275429000, 1028358753710728601400000, 3286993475605238801400000⟩,
  ⟨3352153200313035224900, 570245183292808974220000, 104550153444100853150000⟩,
  ⟨3352153200313035224900, 9325204663263090276700000, 570245183292808766050000⟩,
  ⟨3352153200313035224900, 104550153444102345010000, 9325204663263091386900000⟩,
  ⟨3352153200313035224900, 9325204663263090276700000, 104550153444100853150000⟩,
  ⟨3352153200313035224900, 570245183292810153830000, 9325204663263091386900000⟩,
  ⟨3352153200313035224900, 104550153444097522480000, 570245183292812027330000⟩,
  ⟨20870573836702641969000, 2181534906276070828700000, 1475222615460564101800000⟩,
  ⟨20870573836702641969000, 6343242478263364514400000, 2181534906276071383900000⟩,
  ⟨20870573836702641969000, 1475222615460564656900000, 6343242478263365624600000⟩,
  ⟨20870573836702641969000, 6343242478263364514400000, 1475222615460564101800000⟩,
  ⟨20870573836702641969000, 2181534906276071939000000, 6343242478263365624600000⟩,
  ⟨20870573836702641969000, 1475222615460562714000000, 2181534906276073049200000⟩,
  ⟨12791833284880090721000, 2023063458834635786100000, 521260968074300848340000⟩,
  ⟨12791833284880090721000, 7455675573091063990100000, 2023063458834636063600000⟩,
  ⟨12791833284880090721000, 521260968074300778950000, 7455675573091065100300000⟩,
  ⟨12791833284880090721000, 7455675573091062879900000, 521260968074300848340000⟩,
  ⟨12791833284880090721000, 2023063458834636341200000, 7455675573091065100300000⟩,
  ⟨12791833284880090721000, 521260968074298974840000, 2023063458834638839200000⟩,
  ⟨15919934760616411603000, 2132832098088079941800000, 800841957661688891300000⟩,
  ⟨15919934760616411603000, 7066325944250231305700000, 2132832098088080219300000⟩,
  ⟨15919934760616411603000, 800841957661689307630000, 7066325944250232415900000⟩,
  ⟨15919934760616411603000, 7066325944250231305700000, 800841957661688891300000⟩,
  ⟨15919934760616411603000, 2132832098088080496900000, 7066325944250232415900000⟩,
  ⟨15919934760616411603000, 800841957661687087190000, 2132832098088083272500000⟩,
  ⟨658585463976954320470, 82133588712219682965000, 21607803546683061746000⟩,
  ⟨658585463976954320470, 9896258607741097446100000, 82133588712219353367000⟩,
  ⟨658585463976954320470, 21607803546684345442000, 9896258607741098556300000⟩,
  ⟨658585463976954320470, 9896258607741097446100000, 21607803546683061746000⟩,
  ⟨658585463976954320470, 82133588712220428896000, 9896258607741098556300000⟩,
  ⟨658585463976954320470, 21607803546680459661000, 82133588712223204453000⟩,
  ⟨8228361915530007500100, 4615153616123003343900000, 113638023497272810940000⟩,
  ⟨8228361915530007500100, 5271208360379724400200000, 4615153616123003899000000⟩,
  ⟨8228361915530007500100, 113638023497272255820000, 5271208360379726620700000⟩,
  ⟨8228361915530007500100, 5271208360379723290000000, 113638023497272810940000⟩,
  ⟨8228361915530007500100, 4615153616123003343900000, 5271208360379724400200000⟩,
  ⟨8228361915530007500100, 113638023497271978270000, 4615153616123006119500000⟩,
  ⟨22977415466292751105000, 3546224673127056914400000, 1297785236176510481600000⟩,
  ⟨22977415466292751105000, 5155990090696431771300000, 3546224673127058024700000⟩,
  ⟨22977415466292751105000, 1297785236176509648900000, 5155990090696433991700000⟩,
  ⟨22977415466292751105000, 5155990090696432881500000, 1297785236176510481600000⟩,
  ⟨22977415466292751105000, 3546224673127058024700000, 5155990090696432881500000⟩,
  ⟨22977415466292751105000, 1297785236176509093800000, 3546224673127059690000000⟩,
  ⟨14344300784078093183000, 3109206435860316086700000, 489372786072454005190000⟩,
  ⟨14344300784078093183000, 6401420778067229422300000, 3109206435860316641900000⟩,
  ⟨14344300784078093183000, 489372786072454490910000, 6401420778067231642800000⟩,
  ⟨14344300784078093183000, 6401420778067229422300000, 489372786072454005190000⟩,
  ⟨14344300784078093183000, 3109206435860316086700000, 6401420778067231642800000⟩,
  ⟨14344300784078093183000, 489372786072452825580000, 3109206435860318862300000⟩,
  ⟨23633670304601113281000, 3049557841332306562500000, 1584175590074659578700000⟩,
  ⟨23633670304601113281000, 5366266568593034413900000, 3049557841332307117600000⟩,
  ⟨23633670304601113281000, 1584175590074659578700000, 5366266568593035524200000⟩,
  ⟨23633670304601113281000, 5366266568593034413900000, 1584175590074659578700000⟩,
  ⟨23633670304601113281000, 3049557841332306007400000, 5366266568593035524200000⟩,
  ⟨23633670304601113281000, 1584175590074657913300000, 3049557841332308783000000⟩,
  ⟨24043658844147552944000, 2507944375639041267900000, 1755000854384091146800000⟩,
  ⟨24043658844147552944000, 5737054769976868140400000, 2507944375639042378100000⟩,
  ⟨24043658844147552944000, 1755000854384090591700000, 5737054769976869250700000⟩,
  ⟨24043658844147552944000, 5737054769976868140400000, 1755000854384091146800000⟩,
  ⟨24043658844147552944000, 2507944375639041823000000, 5737054769976868140400000⟩,
  ⟨24043658844147552944000, 1755000854384089203900000, 2507944375639043488300000⟩,
  ⟨22663082591709128935000, 1962948092294495017200000, 1962948092294496960100000⟩,
  ⟨22663082591709128935000, 6074103815411007190100000, 1962948092294495294800000⟩,
  ⟨22663082591709128935000, 1962948092294496405000000, 6074103815411009410500000⟩,
  ⟨20560667756080457276000, 1657987165670959384100000, 1657987165670961882100000⟩,
  ⟨20560667756080457276000, 6684025668658077901100000, 1657987165670960216800000⟩,
  ⟨20560667756080457276000, 1657987165670962714800000, 6684025668658079011300000⟩,
  ⟨15963835418467235694000, 4338692218644805143100000, 531263813104962887010000⟩,
  ⟨15963835418467235694000, 5130043968250231900500000, 4338692218644805698200000⟩,
  ⟨15963835418467235694000, 531263813104962401290000, 5130043968250234121000000⟩,
  ⟨15963835418467235694000, 5130043968250231900500000, 531263813104962887010000⟩,
  ⟨15963835418467235694000, 4338692218644805698200000, 5130043968250231900500000⟩,
  ⟨15963835418467235694000, 531263813104962401290000, 4338692218644807363500000⟩,
  ⟨8743825251447149768400, 770376986253196172070000, 509089773583295684970000⟩,
  ⟨8743825251447149768400, 8720533240163508281700000, 770376986253196033290000⟩,
  ⟨8743825251447149768400, 509089773583296101300000, 8720533240163509392000000⟩,
  ⟨8743825251447149768400, 8720533240163508281700000, 509089773583295684970000⟩,
  ⟨8743825251447149768400, 770376986253196727180000, 8720533240163509392000000⟩,
  ⟨8743825251447149768400, 509089773583292909410000, 770376986253199225190000⟩,
  ⟨7153351661915038038600, 2768361860195224233300000, 111213995971377495320000⟩,
  ⟨7153351661915038038600, 7120424143833398167300000, 2768361860195224788400000⟩,
  ⟨7153351661915038038600, 111213995971378154510000, 7120424143833399277500000⟩,
  ⟨7153351661915038038600, 7120424143833398167300000, 111213995971377495320000⟩,
  ⟨7153351661915038038600, 2768361860195225898600000, 7120424143833398167300000⟩,
  ⟨7153351661915038038600, 111213995971375934070000, 2768361860195227564000000⟩,
  ⟨6340876394676651017400, 1736371621034214218800000, 117797536807179720200000⟩,
  ⟨6340876394676651017400, 8145830842158605644700000, 1736371621034214218800000⟩,
  ⟨6340876394676651017400, 117797536807180414090000, 8145830842158607865100000⟩,
  ⟨6340876394676651017400, 8145830842158605644700000, 117797536807179720200000⟩,
  ⟨6340876394676651017400, 1736371621034215051400000, 8145830842158607865100000⟩,
  ⟨6340876394676651017400, 117797536807177499750000, 1736371621034217549400000⟩,
  ⟨7895168719558379177800, 3354336886613769608300000, 118081263036933694490000⟩,
  ⟨7895168719558379177800, 6527581850349297720700000, 3354336886613769608300000⟩,
  ⟨7895168719558379177800, 118081263036933781230000, 6527581850349298830900000⟩,
  ⟨7895168719558379177800, 6527581850349296610500000, 118081263036933694490000⟩,
  ⟨7895168719558379177800, 3354336886613770163400000, 6527581850349297720700000⟩,
  ⟨7895168719558379177800, 118081263036932115900000, 3354336886613772383800000⟩,
  ⟨16077226042160266180000, 3750642184523966249400000, 512438839908936349940000⟩,
  ⟨16077226042160266180000, 5736918975567097955800000, 3750642184523967359600000⟩,
  ⟨16077226042160266180000, 512438839908935794830000, 5736918975567099066000000⟩,
  ⟨16077226042160266180000, 5736918975567097955800000, 512438839908936349940000⟩,
  ⟨16077226042160266180000, 3750642184523966804500000, 5736918975567097955800000⟩,
  ⟨16077226042160266180000, 512438839908935239720000, 3750642184523969024900000⟩,
  ⟨26988529110084772712000, 3467112861299004311600000, 1825412564761328404500000⟩,
  ⟨26988529110084772712000, 4707474573939667839000000, 3467112861299005421900000⟩,
  ⟨26988529110084772712000, 1825412564761327571800000, 4707474573939668949200000⟩,
  ⟨26988529110084772712000, 4707474573939667283900000, 1825412564761328404500000⟩,
  ⟨26988529110084772712000, 3467112861299004866700000, 4707474573939668394100000⟩,
  ⟨26988529110084772712000, 1825412564761326739100000, 3467112861299006532100000⟩,
  ⟨15313526015054393543000, 2559685112606641110800000, 539018714502928694700000⟩,
  ⟨15313526015054393543000, 6901296172890429847500000, 2559685112606641666000000⟩,
  ⟨15313526015054393543000, 539018714502929041640000, 6901296172890432068000000⟩,
  ⟨15313526015054393543000, 6901296172890430957700000, 539018714502928694700000⟩,
  ⟨15313526015054393543000, 2559685112606641666000000, 6901296172890430957700000⟩,
  ⟨15313526015054393543000, 539018714502926543640000, 2559685112606643886400000⟩,
  ⟨11596092048187249448000, 2920069207885316320300000, 273433134615536990730000⟩,
  ⟨11596092048187249448000, 6806497657499146480800000, 2920069207885316320300000⟩,
  ⟨11596092048187249448000, 273433134615537754010000, 6806497657499147591100000⟩,
  ⟨11596092048187249448000, 6806497657499146480800000, 273433134615536990730000⟩,
  ⟨11596092048187249448000, 2920069207885316875400000, 6806497657499147591100000⟩,
  ⟨11596092048187249448000, 273433134615534700900000, 2920069207885319095800000⟩,
  ⟨11480501450886414737000, 2364172395795755554600000, 297423818792802684140000⟩,
  ⟨11480501450886414737000, 7338403785411441449000000, 2364172395795755832200000⟩,
  ⟨11480501450886414737000, 297423818792802996390000, 7338403785411443669400000⟩,
  ⟨11480501450886414737000, 7338403785411441449000000, 297423818792802684140000⟩,
  ⟨11480501450886414737000, 2364172395795755554600000, 7338403785411443669400000⟩,
  ⟨11480501450886414737000, 297423818792800637170000, 2364172395795758607800000⟩,
  ⟨3669051660355998720400, 4661508981294354425600000, 21912946810573653324000⟩,
  ⟨3669051660355998720400, 5316578071895071699900000, 4661508981294355535900000⟩,
  ⟨3669051660355998720400, 21912946810573319389000, 5316578071895073920300000⟩,
  ⟨3669051660355998720400, 5316578071895071699900000, 21912946810573653324000⟩,
  ⟨3669051660355998720400, 4661508981294354425600000, 5316578071895072810100000⟩,
  ⟨3669051660355998720400, 21912946810573041834000, 4661508981294357201200000⟩,
  ⟨7218801383704027485900, 2234826291455856428500000, 125736658366042697300000⟩,
  ⟨7218801383704027485900, 7639437050178101706900000, 2234826291455856428500000⟩,
  ⟨7218801383704027485900, 125736658366042419740000, 7639437050178103927300000⟩,
  ⟨7218801383704027485900, 7639437050178101706900000, 125736658366042697300000⟩,
  ⟨7218801383704027485900, 2234826291455856428500000, 7639437050178102817100000⟩,
  ⟨7218801383704027485900, 125736658366040754410000, 2234826291455859204000000⟩,
  ⟨8293331619821299894500, 3973680138780005810500000, 115196691295125427930000⟩,
  ⟨8293331619821299894500, 5911123169924867859500000, 3973680138780006365600000⟩,
  ⟨8293331619821299894500, 115196691295124664660000, 5911123169924871190200000⟩,
  ⟨8293331619821299894500, 5911123169924868969700000, 115196691295125427930000⟩,
  ⟨8293331619821299894500, 3973680138780005810500000, 5911123169924870079900000⟩,
  ⟨8293331619821299894500, 115196691295124387100000, 3973680138780008586100000⟩,
  ⟨27853646540566229066000, 2856792432449899443700000, 2106680376667663390200000⟩,
  ⟨27853646540566229066000, 5036527190882436055800000, 2856792432449900553900000⟩,
  ⟨27853646540566229066000, 2106680376667662835100000, 5036527190882438276300000⟩,
  ⟨27853646540566229066000, 5036527190882436055800000, 2106680376667663390200000⟩,
  ⟨27853646540566229066000, 2856792432449899443700000, 5036527190882438276300000⟩,
  ⟨27853646540566229066000, 2106680376667662002400000, 2856792432449901109100000⟩,
  ⟨26681419989316580536000, 2290071177870446061900000, 2290071177870448004800000⟩,
  ⟨26681419989316580536000, 5419857644259105100600000, 2290071177870447172200000⟩,
  ⟨26681419989316580536000, 2290071177870448004800000, 5419857644259106210800000⟩,
  ⟨32378109639113060621000, 2998981018797285957900000, 2998981018797287623200000⟩,
  ⟨32378109639113060621000, 4002037962405426974000000, 2998981018797287068100000⟩,
  ⟨32378109639113060621000, 2998981018797285957900000, 4002037962405428084300000⟩,
  ⟨3607187172322990492700, 4009919122964067939000000, 21708502824680378854000⟩,
  ⟨3607187172322990492700, 5968372374211252662200000, 4009919122964068494100000⟩,
  ⟨3607187172322990492700, 21708502824679953846000, 5968372374211253772500000⟩,
  ⟨3607187172322990492700, 5968372374211252662200000, 21708502824680378854000⟩,
  ⟨3607187172322990492700, 4009919122964067383900000, 5968372374211252662200000⟩,
  ⟨3607187172322990492700, 21708502824679676291000, 4009919122964070159500000⟩,
  ⟨13110639122073867828000, 1562735104040767486500000, 557664223797979460850000⟩,
  ⟨13110639122073867828000, 7879600672161253260800000, 1562735104040767764000000⟩,
  ⟨13110639122073867828000, 557664223797980085350000, 7879600672161254371100000⟩,
  ⟨13110639122073867828000, 7879600672161253260800000, 557664223797979460850000⟩,
  ⟨13110639122073867828000, 1562735104040768319100000, 7879600672161254371100000⟩,
  ⟨13110639122073867828000, 557664223797977448570000, 1562735104040770817100000⟩,
  ⟨1517898016861911119800, 477858936846818488360000, 20979082703016307954000⟩,
  ⟨1517898016861911119800, 9501161980450164579200000, 477858936846818141420000⟩,
  ⟨1517898016861911119800, 20979082703018181455000, 9501161980450166799600000⟩,
  ⟨1517898016861911119800, 9501161980450165689400000, 20979082703016307954000⟩,
  ⟨1517898016861911119800, 477858936846819459810000, 9501161980450166799600000⟩,
  ⟨1517898016861911119800, 20979082703013463007000, 477858936846821680260000⟩,
  ⟨10500435005742030353000, 1822491599313740828800000, 290781975795925198840000⟩,
  ⟨10500435005742030353000, 7886726424890334596900000, 1822491599313740828800000⟩,
  ⟨10500435005742030353000, 290781975795925129450000, 7886726424890336817300000⟩,
  ⟨10500435005742030353000, 7886726424890333486700000, 290781975795925198840000⟩,
  ⟨10500435005742030353000, 1822491599313741939000000, 7886726424890334596900000⟩,
  ⟨10500435005742030353000, 290781975795923325330000, 1822491599313743881900000⟩,
  ⟨32641584727157056320000, 3660812614114253849000000, 2678374771771492857100000⟩,
  ⟨32641584727157056320000, 3660812614114253849000000, 3660812614114254404100000⟩,
  ⟨32641584727157056320000, 2678374771771491191800000, 3660812614114255514300000⟩,
  ⟨4831493093706654162200, 893475681919859154870000, 115829668440252560310000⟩,
  ⟨4831493093706654162200, 8990694649639887625600000, 893475681919858877310000⟩,
  ⟨4831493093706654162200, 115829668440253774620000, 8990694649639889846100000⟩,
  ⟨4831493093706654162200, 8990694649639888735800000, 115829668440252560310000⟩,
  ⟨4831493093706654162200, 893475681919859709980000, 8990694649639889846100000⟩,
  ⟨4831493093706654162200, 115829668440250166390000, 893475681919862485540000⟩,
  ⟨16023361851144860175000, 1652198812399127692000000, 874623616502727824210000⟩,
  ⟨16023361851144860175000, 7473177571098144067500000, 1652198812399127692000000⟩,
  ⟨16023361851144860175000, 874623616502728795650000, 7473177571098146287900000⟩,
  ⟨16023361851144860175000, 7473177571098144067500000, 874623616502727824210000⟩,
  ⟨16023361851144860175000, 1652198812399128247100000, 7473177571098146287900000⟩,
  ⟨16023361851144860175000, 874623616502725603760000, 1652198812399130190000000⟩,
  ⟨1961475226936707394900, 805280047391684350440000, 20785035982192664322000⟩,
  ⟨1961475226936707394900, 9173934916626123037300000, 805280047391684072890000⟩,
  ⟨1961475226936707394900, 20785035982194832727000, 9173934916626123037300000⟩,
  ⟨1961475226936707394900, 9173934916626121927100000, 20785035982192664322000⟩,
  ⟨1961475226936707394900, 805280047391685460670000, 9173934916626123037300000⟩,
  ⟨1961475226936707394900, 20785035982190253057000, 805280047391687958670000⟩,
  ⟨31287906040182397217000, 3305415015675990386700000, 2364777837447837594000000⟩,
  ⟨31287906040182397217000, 4329807146876172296900000, 3305415015675991496900000⟩,
  ⟨31287906040182397217000, 2364777837447836761300000, 4329807146876173407100000⟩,
  ⟨31287906040182397217000, 4329807146876172296900000, 2364777837447837594000000⟩,
  ⟨31287906040182397217000, 3305415015675990941800000, 4329807146876172852000000⟩,
  ⟨31287906040182397217000, 2364777837447836206200000, 3305415015675992052000000⟩,
  ⟨18906202570454584602000, 1750740132522936032300000, 1228090180537128872600000⟩,
  ⟨18906202570454584602000, 7021169686939935372600000, 1750740132522936587400000⟩,
  ⟨18906202570454584602000, 1228090180537129705300000, 7021169686939935372600000⟩,
  ⟨18906202570454584602000, 7021169686939934262400000, 1228090180537128872600000⟩,
  ⟨18906202570454584602000, 1750740132522936587400000, 7021169686939936482900000⟩,
  ⟨18906202570454584602000, 1228090180537126374600000, 1750740132522938807800000⟩,
  ⟨11531809823860795627000, 1133949730294223634500000, 550050284444838430420000⟩,
  ⟨11531809823860795627000, 8315999985260937865700000, 1133949730294223357000000⟩,
  ⟨11531809823860795627000, 550050284444839610030000, 8315999985260938975900000⟩,
  ⟨11531809823860795627000, 8315999985260937865700000, 550050284444838430420000⟩,
  ⟨11531809823860795627000, 1133949730294224189600000, 8315999985260938975900000⟩,
  ⟨11531809823860795627000, 550050284444836071200000, 1133949730294226271300000⟩,
  ⟨7982151686494688615900, 945442284064488130960000, 287935332271121169350000⟩,
  ⟨7982151686494688615900, 8766622383664390838500000, 945442284064487853400000⟩,
  ⟨7982151686494688615900, 287935332271122002010000, 8766622383664393058900000⟩,
  ⟨7982151686494688615900, 8766622383664390838500000, 287935332271121169350000⟩,
  ⟨7982151686494688615900, 945442284064488269730000, 8766622383664393058900000⟩,
  ⟨7982151686494688615900, 287935332271118393790000, 945442284064491045290000⟩,
  ⟨6244180067969696277000, 589589423608462975810000, 262933317918677932070000⟩,
  ⟨6244180067969696277000, 9147477258472858086000000, 589589423608462906420000⟩,
  ⟨6244180067969696277000, 262933317918678244320000, 9147477258472861416600000⟩,
  ⟨6244180067969696277000, 9147477258472859196200000, 262933317918677932070000⟩,
  ⟨6244180067969696277000, 589589423608462559480000, 9147477258472861416600000⟩,
  ⟨6244180067969696277000, 262933317918676023870000, 589589423608466445260000⟩,
  ⟨12778142041472658787000, 3554461171023696741700000, 283073273852235927920000⟩,
  ⟨12778142041472658787000, 6162465555124068128400000, 3554461171023697296800000⟩,
  ⟨12778142041472658787000, 283073273852235685060000, 6162465555124070348800000⟩,
  ⟨12778142041472658787000, 6162465555124067018200000, 283073273852235927920000⟩,
  ⟨12778142041472658787000, 3554461171023695631500000, 6162465555124069238600000⟩,
  ⟨12778142041472658787000, 283073273852234852390000, 3554461171023698962100000⟩,
  ⟨13391424658452744448000, 4206278444454288889500000, 281269388071388806720000⟩,
  ⟨13391424658452744448000, 5512452167474322095600000, 4206278444454289444600000⟩,
  ⟨13391424658452744448000, 281269388071388459770000, 5512452167474324316000000⟩,
  ⟨13391424658452744448000, 5512452167474322095600000, 281269388071388806720000⟩,
  ⟨13391424658452744448000, 4206278444454289444600000, 5512452167474323205800000⟩,
  ⟨13391424658452744448000, 281269388071387627100000, 4206278444454291665100000⟩,
  ⟨4858548500685609260400, 307693439520817652030000, 307693439520820566370000⟩,
  ⟨4858548500685609260400, 9384613120958361642800000, 307693439520817374480000⟩,
  ⟨4858548500685609260400, 307693439520821399040000, 9384613120958363863300000⟩,
  ⟨3206950079168929628400, 2763424771664457213500000, 21009010930692672073000⟩,
  ⟨3206950079168929628400, 7215566217404849602700000, 2763424771664457213500000⟩,
  ⟨3206950079168929628400, 21009010930693738928000, 7215566217404850712900000⟩,
  ⟨3206950079168929628400, 7215566217404850712900000, 21009010930692672073000⟩,
  ⟨3206950079168929628400, 2763424771664458323700000, 7215566217404850712900000⟩,
  ⟨3206950079168929628400, 21009010930690685814000, 2763424771664460544200000⟩,
  ⟨9553586770292666436800, 1358344051381372708000000, 305221004022598642320000⟩,
  ⟨9553586770292666436800, 8336434944596028406800000, 1358344051381372708000000⟩,
  ⟨9553586770292666436800, 305221004022599995410000, 8336434944596029517100000⟩,
  ⟨9553586770292666436800, 8336434944596029517100000, 305221004022598642320000⟩,
  ⟨9553586770292666436800, 1358344051381373818200000, 8336434944596029517100000⟩,
  ⟨9553586770292666436800, 305221004022596109630000, 1358344051381376038600000⟩,
  ⟨15142824283244876813000, 1214324449203872946500000, 881430419815303345390000⟩,
  ⟨15142824283244876813000, 7904245130980822597900000, 1214324449203872946500000⟩,
  ⟨15142824283244876813000, 881430419815304455610000, 7904245130980824818300000⟩,
  ⟨15142824283244876813000, 7904245130980823708100000, 881430419815303345390000⟩,
  ⟨15142824283244876813000, 1214324449203874056700000, 7904245130980824818300000⟩,
  ⟨15142824283244876813000, 881430419815300847390000, 1214324449203875860800000⟩,
  ⟨12193489507377076181000, 824986937635582839870000, 824986937635585615420000⟩,
  ⟨12193489507377076181000, 8350026124728830989600000, 824986937635582701090000⟩,
  ⟨12193489507377076181000, 824986937635586725650000, 8350026124728833210000000⟩,
  ⟨5970097372568830551600, 1292544813329482011900000, 125808072722038699620000⟩,
  ⟨5970097372568830551600, 8581647113948479566000000, 1292544813329482011900000⟩,
  ⟨5970097372568830551600, 125808072722038977180000, 8581647113948480676300000⟩,
  ⟨5970097372568830551600, 8581647113948479566000000, 125808072722038699620000⟩,
  ⟨5970097372568830551600, 1292544813329483122100000, 8581647113948479566000000⟩,
  ⟨5970097372568830551600, 125808072722036340400000, 1292544813329485620100000⟩,
  ⟨19948930721100494555000, 2729393183303263081800000, 838760556578321686550000⟩,
  ⟨19948930721100494555000, 6431846260118415648000000, 2729393183303263636900000⟩,
  ⟨19948930721100494555000, 838760556578321825330000, 6431846260118416758200000⟩,
  ⟨19948930721100494555000, 6431846260118414537700000, 838760556578321686550000⟩,
  ⟨19948930721100494555000, 2729393183303263636900000, 6431846260118416758200000⟩,
  ⟨19948930721100494555000, 838760556578320437550000, 2729393183303265302300000⟩,
  ⟨20941020358881930544000, 4608230043475881054800000, 783539913048237890440000⟩,
  ⟨20941020358881930544000, 4608230043475881054800000, 4608230043475881609900000⟩,
  ⟨20941020358881930544000, 783539913048236780210000, 4608230043475883830300000⟩,
  ⟨23870799382237615528000, 2762244316742869521000000, 1247916004447047894100000⟩,
  ⟨23870799382237615528000, 5989839678810082723700000, 2762244316742870631200000⟩,
  ⟨23870799382237615528000, 1247916004447047755300000, 5989839678810083833900000⟩,
  ⟨23870799382237615528000, 5989839678810082723700000, 1247916004447047894100000⟩,
  ⟨23870799382237615528000, 2762244316742869521000000, 5989839678810083833900000⟩,
  ⟨23870799382237615528000, 1247916004447046090000000, 2762244316742872296500000⟩,
  ⟨2840506487653304042900, 1665310619918010659500000, 22302492894394911581000⟩,
  ⟨2840506487653304042900, 8312386887187594997100000, 1665310619918010659500000⟩,
  ⟨2840506487653304042900, 22302492894394898570000, 8312386887187597217500000⟩,
  ⟨2840506487653304042900, 8312386887187593886800000, 22302492894394911581000⟩,
  ⟨2840506487653304042900, 1665310619918010104400000, 8312386887187597217500000⟩,
  ⟨2840506487653304042900, 22302492894392678124000, 1665310619918013435000000⟩,
  ⟨3646448949457662173100, 3373238618789555776100000, 22846671110010245524000⟩,
  ⟨3646448949457662173100, 6603914710100433627100000, 3373238618789556331200000⟩,
  ⟨3646448949457662173100, 22846671110011151917000, 6603914710100434737300000⟩,
  ⟨3646448949457662173100, 6603914710100433627100000, 22846671110010245524000⟩,
  ⟨3646448949457662173100, 3373238618789556331200000, 6603914710100434737300000⟩,
  ⟨3646448949457662173100, 22846671110009209027000, 3373238618789558551600000⟩,
  ⟨29931371482375471182000, 2666157086976967405300000, 2666157086976969070600000⟩,
  ⟨29931371482375471182000, 4667685826046064079300000, 2666157086976968515500000⟩,
  ⟨29931371482375471182000, 2666157086976968515500000, 4667685826046065189500000⟩,
  ⟨18867400782665308748000, 1284394349475122543100000, 1284394349475125318700000⟩,
  ⟨18867400782665308748000, 7431211301049752693300000, 1284394349475122820700000⟩,
  ⟨18867400782665308748000, 1284394349475125318700000, 7431211301049753803500000⟩,
  ⟨21997780849930203238000, 3899848376803787819400000, 831933025800658670910000⟩,
  ⟨21997780849930203238000, 5268218597395553093300000, 3899848376803788929700000⟩,
  ⟨21997780849930203238000, 831933025800657977020000, 5268218597395556424000000⟩,
  ⟨21997780849930203238000, 5268218597395553093300000, 831933025800658670910000⟩,
  ⟨21997780849930203238000, 3899848376803787819400000, 5268218597395554203500000⟩,
  ⟨21997780849930203238000, 831933025800656866800000, 3899848376803790595000000⟩,
  ⟨33175235616035771841000, 3333333333333332593200000, 3333333333333334258500000⟩,
  ⟨3394794992886660824600, 2190574020296069124300000, 24070310918325697747000⟩,
  ⟨3394794992886660824600, 7785355668785605143300000, 2190574020296069401900000⟩,
  ⟨3394794992886660824600, 24070310918326565108000, 7785355668785606253500000⟩,
  ⟨3394794992886660824600, 7785355668785605143300000, 24070310918325697747000⟩,
  ⟨3394794992886660824600, 2190574020296069401900000, 7785355668785606253500000⟩,
  ⟨3394794992886660824600, 24070310918323789551000, 2190574020296072177400000⟩,
  ⟨2657220567030895721200, 1203413424430903183600000, 24170636184783437367000⟩,
  ⟨2657220567030895721200, 8772415939384312633100000, 1203413424430903322400000⟩,
  ⟨2657220567030895721200, 24170636184784322076000, 8772415939384314853600000⟩,
  ⟨2657220567030895721200, 8772415939384312633100000, 24170636184783437367000⟩,
  ⟨2657220567030895721200, 1203413424430903599900000, 8772415939384314853600000⟩,
  ⟨2657220567030895721200, 24170636184781199574000, 1203413424430906514300000⟩,
  ⟨32408236272432663222000, 3975115754020482894400000, 2049768491959033656100000⟩,
  ⟨32408236272432663222000, 3975115754020484004600000, 3975115754020484559700000⟩,
  ⟨32408236272432663222000, 2049768491959032545900000, 3975115754020485114900000⟩,
  ⟨3237623317066694642600, 321434597854267645190000, 128868718184530495210000⟩,
  ⟨3237623317066694642600, 9549696683961200749400000, 321434597854267992130000⟩,
  ⟨3237623317066694642600, 128868718184532160540000, 9549696683961201859600000⟩,
  ⟨3237623317066694642600, 9549696683961201859600000, 128868718184530495210000⟩,
  ⟨3237623317066694642600, 321434597854268755410000, 9549696683961204080000000⟩,
  ⟨3237623317066694642600, 128868718184527615570000, 321434597854271184030000⟩,
  ⟨2246733551400219590300, 128796984358850331170000, 128796984358853471020000⟩,
  ⟨2246733551400219590300, 9742406031282295764100000, 128796984358850261780000⟩,
  ⟨2246733551400219590300, 128796984358854338380000, 9742406031282297984600000⟩,
  ⟨1306639730011501020300, 239783625881974243880000, 25873987120107176142000⟩,
  ⟨1306639730011501020300, 9734342386997918428200000, 239783625881973792850000⟩,
  ⟨1306639730011501020300, 25873987120109687154000, 9734342386997918428200000⟩,
  ⟨1306639730011501020300, 9734342386997918428200000, 25873987120107176142000⟩,
  ⟨1306639730011501020300, 239783625881975215320000, 9734342386997920648600000⟩,
  ⟨1306639730011501020300, 25873987120104031956000, 239783625881977643930000⟩,
  ⟨70476100679752367505, 4929222424057992310600, 4929222424060967361300⟩,
  ⟨70476100679752367505, 9990141555151880181600000, 4929222424057761375500⟩,
  ⟨70476100679752367505, 4929222424062684737600, 9990141555151881291900000⟩]

end Verif
