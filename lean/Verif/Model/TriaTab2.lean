import Verif.Model.TriaTabBase

/-! Generated by tools/quad_tables.py from /repo/lib/lf/quad/quad_rules_tria.cc. -/

namespace Verif

/-- `HardcodedQuadRule<kTria, 33>()`; /repo/lib/lf/quad/quad_rules_tria.cc:7142-7760. -/
def triaTab33 : List TabRow := [
  ⟨16011820062071030132000, 866842399345696401620000, 866842399345698760850000⟩,
  ⟨16011820062071030132000, 8266315201308604976300000, 866842399345696262850000⟩,
  ⟨16011820062071030132000, 866842399345699177180000, 8266315201308606086500000⟩,
  ⟨34173399672340438668000, 4094279608026433203700000, 1811440783947133315000000⟩,
  ⟨34173399672340438668000, 4094279608026433203700000, 4094279608026434313900000⟩,
  ⟨34173399672340438668000, 1811440783947131927300000, 4094279608026435424200000⟩,
  ⟨25054117282874480664000, 2581529287895067414900000, 869286359632870375690000⟩,
  ⟨25054117282874480664000, 6549184352472062764500000, 2581529287895067970000000⟩,
  ⟨25054117282874480664000, 869286359632870375690000, 6549184352472063874700000⟩,
  ⟨25054117282874480664000, 6549184352472062764500000, 869286359632870375690000⟩,
  ⟨25054117282874480664000, 2581529287895067970000000, 6549184352472063874700000⟩,
  ⟨25054117282874480664000, 869286359632868710360000, 2581529287895070190500000⟩,
  ⟨31333357572989779805000, 2849624019720828904700000, 1140920353228313532900000⟩,
  ⟨31333357572989779805000, 6009455627050857007300000, 2849624019720829459800000⟩,
  ⟨31333357572989779805000, 1140920353228313532900000, 6009455627050859227700000⟩,
  ⟨31333357572989779805000, 6009455627050857007300000, 1140920353228313532900000⟩,
  ⟨31333357572989779805000, 2849624019720828904700000, 6009455627050859227700000⟩,
  ⟨31333357572989779805000, 1140920353228311867600000, 2849624019720831125100000⟩,
  ⟨44670809040683713900000, 3783335382962427218000000, 2433329234075145841600000⟩,
  ⟨44670809040683713900000, 3783335382962426662900000, 3783335382962428328200000⟩,
  ⟨44670809040683713900000, 2433329234075144731400000, 3783335382962428883300000⟩,
  ⟨5205456186432105229100, 4989797178600511862200000, 20405642798976492483000⟩,
  ⟨5205456186432105229100, 4989797178600512417300000, 4989797178600512972400000⟩,
  ⟨5205456186432105229100, 20405642798975998087000, 4989797178600514082600000⟩,
  ⟨25530461509316558499000, 1340676338419341251400000, 916653314400512203570000⟩,
  ⟨25530461509316558499000, 7742670347180146128700000, 1340676338419341528900000⟩,
  ⟨25530461509316558499000, 916653314400512342350000, 7742670347180148349200000⟩,
  ⟨25530461509316558499000, 7742670347180146128700000, 916653314400512203570000⟩,
  ⟨25530461509316558499000, 1340676338419341528900000, 7742670347180148349200000⟩,
  ⟨25530461509316558499000, 916653314400509983130000, 1340676338419344582100000⟩,
  ⟨48196234294203910489000, 3269137502096715608400000, 2159393912434156570500000⟩,
  ⟨48196234294203910489000, 4571468585469127266000000, 3269137502096716718600000⟩,
  ⟨48196234294203910489000, 2159393912434156015400000, 4571468585469129486400000⟩,
  ⟨48196234294203910489000, 4571468585469127821100000, 2159393912434156570500000⟩,
  ⟨48196234294203910489000, 3269137502096715053300000, 4571468585469128931300000⟩,
  ⟨48196234294203910489000, 2159393912434155460300000, 3269137502096717273800000⟩,
  ⟨48694286183426855122000, 2596606680087211183100000, 2596606680087212848400000⟩,
  ⟨48694286183426855122000, 4806786639825575413500000, 2596606680087212293300000⟩,
  ⟨48694286183426855122000, 2596606680087212848400000, 4806786639825576523700000⟩,
  ⟨12106190194342474151000, 1008457159827755717000000, 223903162865835385350000⟩,
  ⟨12106190194342474151000, 8767639677306408030300000, 1008457159827755717000000⟩,
  ⟨12106190194342474151000, 223903162865836113940000, 8767639677306410250800000⟩,
  ⟨12106190194342474151000, 8767639677306409140600000, 223903162865835385350000⟩,
  ⟨12106190194342474151000, 1008457159827756966000000, 8767639677306409140600000⟩,
  ⟨12106190194342474151000, 223903162865833338380000, 1008457159827759186400000⟩,
  ⟨38486733635274676148000, 3552328254047639744000000, 992419378880282920810000⟩,
  ⟨38486733635274676148000, 5455252367072076502600000, 3552328254047640299100000⟩,
  ⟨38486733635274676148000, 992419378880282643250000, 5455252367072078723000000⟩,
  ⟨38486733635274676148000, 5455252367072077612800000, 992419378880282920810000⟩,
  ⟨38486733635274676148000, 3552328254047639744000000, 5455252367072078723000000⟩,
  ⟨38486733635274676148000, 992419378880281533030000, 3552328254047641964400000⟩,
  ⟨14941223459745160348000, 1584027341957247869700000, 204436751441748401640000⟩,
  ⟨14941223459745160348000, 8211535906601002965400000, 1584027341957247869700000⟩,
  ⟨14941223459745160348000, 204436751441749442470000, 8211535906601005185800000⟩,
  ⟨14941223459745160348000, 8211535906601004075600000, 204436751441748401640000⟩,
  ⟨14941223459745160348000, 1584027341957248147300000, 8211535906601006296100000⟩,
  ⟨14941223459745160348000, 204436751441746528140000, 1584027341957250645300000⟩,
  ⟨27321628420230179360000, 4785119732563821726100000, 429760534872357033430000⟩,
  ⟨27321628420230179360000, 4785119732563822281300000, 4785119732563821726100000⟩,
  ⟨27321628420230179360000, 429760534872355992600000, 4785119732563823946600000⟩,
  ⟨30994270129716811057000, 4012397484580546569400000, 586121184566509023650000⟩,
  ⟨30994270129716811057000, 5401481330852944129400000, 4012397484580547124500000⟩,
  ⟨30994270129716811057000, 586121184566508746090000, 5401481330852946349800000⟩,
  ⟨30994270129716811057000, 5401481330852945239600000, 586121184566509023650000⟩,
  ⟨30994270129716811057000, 4012397484580547124500000, 5401481330852945239600000⟩,
  ⟨30994270129716811057000, 586121184566507358320000, 4012397484580549345000000⟩,
  ⟨16584986469565367404000, 2273220131649665853900000, 194249101655772464510000⟩,
  ⟨16584986469565367404000, 7532530766694562895900000, 2273220131649665853900000⟩,
  ⟨16584986469565367404000, 194249101655773470650000, 7532530766694562895900000⟩,
  ⟨16584986469565367404000, 7532530766694561785700000, 194249101655772464510000⟩,
  ⟨16584986469565367404000, 2273220131649665853900000, 7532530766694562895900000⟩,
  ⟨16584986469565367404000, 194249101655770695100000, 2273220131649669184500000⟩,
  ⟨18544648062946323015000, 1040040001314270212700000, 508701921937649848000000⟩,
  ⟨18544648062946323015000, 8451258076748079384200000, 1040040001314270073900000⟩,
  ⟨18544648062946323015000, 508701921937650958230000, 8451258076748080494400000⟩,
  ⟨18544648062946323015000, 8451258076748080494400000, 508701921937649848000000⟩,
  ⟨18544648062946323015000, 1040040001314271878000000, 8451258076748080494400000⟩,
  ⟨18544648062946323015000, 508701921937647905110000, 1040040001314273543400000⟩,
  ⟨7713232592352815440400, 2516190193630366556100000, 38062521288191411041000⟩,
  ⟨7713232592352815440400, 7445747285081441013700000, 2516190193630367111200000⟩,
  ⟨7713232592352815440400, 38062521288191319968000, 7445747285081444344400000⟩,
  ⟨7713232592352815440400, 7445747285081442123900000, 38062521288191411041000⟩,
  ⟨7713232592352815440400, 2516190193630368221500000, 7445747285081442123900000⟩,
  ⟨7713232592352815440400, 38062521288189654634000, 2516190193630369886800000⟩,
  ⟨33060862055342109256000, 1946715273720462380200000, 939537103695899794560000⟩,
  ⟨33060862055342109256000, 7113747622583637131300000, 1946715273720462935400000⟩,
  ⟨33060862055342109256000, 939537103695900488450000, 7113747622583638241500000⟩,
  ⟨33060862055342109256000, 7113747622583638241500000, 939537103695899794560000⟩,
  ⟨33060862055342109256000, 1946715273720462935400000, 7113747622583639351700000⟩,
  ⟨33060862055342109256000, 939537103695897712900000, 1946715273720465155800000⟩,
  ⟨6775890978753248495100, 1756396314580331297100000, 36669776240121181032000⟩,
  ⟨6775890978753248495100, 8206933909179546793300000, 1756396314580331574600000⟩,
  ⟨6775890978753248495100, 36669776240121909616000, 8206933909179549013800000⟩,
  ⟨6775890978753248495100, 8206933909179546793300000, 36669776240121181032000⟩,
  ⟨6775890978753248495100, 1756396314580332407300000, 8206933909179549013800000⟩,
  ⟨6775890978753248495100, 36669776240119411614000, 1756396314580334627700000⟩,
  ⟨24518141717764572844000, 1654225039506262706600000, 504257035060658373450000⟩,
  ⟨24518141717764572844000, 7841517925433079128100000, 1654225039506262984200000⟩,
  ⟨24518141717764572844000, 504257035060657887730000, 7841517925433081348500000⟩,
  ⟨24518141717764572844000, 7841517925433079128100000, 504257035060658373450000⟩,
  ⟨24518141717764572844000, 1654225039506263539300000, 7841517925433080238300000⟩,
  ⟨24518141717764572844000, 504257035060656499950000, 1654225039506265759700000⟩,
  ⟨4578830785905038084000, 604829240909602813820000, 41121482809412098977000⟩,
  ⟨4578830785905038084000, 9354049276280984592800000, 604829240909602328100000⟩,
  ⟨4578830785905038084000, 41121482809413079096000, 9354049276280986813200000⟩,
  ⟨4578830785905038084000, 9354049276280985703000000, 41121482809412098977000⟩,
  ⟨4578830785905038084000, 604829240909603438330000, 9354049276280986813200000⟩,
  ⟨4578830785905038084000, 41121482809409228010000, 604829240909605589380000⟩,
  ⟨9109081322132613761600, 3321035653575232782200000, 43366708649929192401000⟩,
  ⟨9109081322132613761600, 6635597637774838242200000, 3321035653575232782200000⟩,
  ⟨9109081322132613761600, 43366708649929530672000, 6635597637774840462700000⟩,
  ⟨9109081322132613761600, 6635597637774838242200000, 43366708649929192401000⟩,
  ⟨9109081322132613761600, 3321035653575233337300000, 6635597637774838242200000⟩,
  ⟨9109081322132613761600, 43366708649927865338000, 3321035653575235002700000⟩,
  ⟨46211899508548049884000, 3794132168456387233000000, 1437641762405430234700000⟩,
  ⟨46211899508548049884000, 4768226069138182809900000, 3794132168456388343200000⟩,
  ⟨46211899508548049884000, 1437641762405429679500000, 4768226069138184475300000⟩,
  ⟨46211899508548049884000, 4768226069138182809900000, 1437641762405430234700000⟩,
  ⟨46211899508548049884000, 3794132168456386677800000, 4768226069138183365000000⟩,
  ⟨46211899508548049884000, 1437641762405429124400000, 3794132168456389453400000⟩,
  ⟨6906845315139521030900, 235174430579130483430000, 235174430579133397770000⟩,
  ⟨6906845315139521030900, 9529651138841735980000000, 235174430579130205880000⟩,
  ⟨6906845315139521030900, 235174430579135340660000, 9529651138841735980000000⟩,
  ⟨9803156168466070456700, 565688972489456487480000, 218658180283708390710000⟩,
  ⟨9803156168466070456700, 9215652847226833976900000, 565688972489456556870000⟩,
  ⟨9803156168466070456700, 218658180283708980520000, 9215652847226837307600000⟩,
  ⟨9803156168466070456700, 9215652847226835087100000, 218658180283708390710000⟩,
  ⟨9803156168466070456700, 565688972489457042590000, 9215652847226837307600000⟩,
  ⟨9803156168466070456700, 218658180283705684540000, 565688972489459748760000⟩,
  ⟨60443699904582813207000, 3060238617603605604200000, 3060238617603607269600000⟩,
  ⟨60443699904582813207000, 3879522764792787126200000, 3060238617603606714500000⟩,
  ⟨60443699904582813207000, 3060238617603605604200000, 3879522764792788236400000⟩,
  ⟨36887232483670952081000, 1464890507166426991700000, 1464890507166429489700000⟩,
  ⟨36887232483670952081000, 7070218985667142686000000, 1464890507166426991700000⟩,
  ⟨36887232483670952081000, 1464890507166430322300000, 7070218985667143796200000⟩,
  ⟨16046752219708100735000, 543792032794962812430000, 543792032794965657370000⟩,
  ⟨16046752219708100735000, 8912415934410071738400000, 543792032794962743040000⟩,
  ⟨16046752219708100735000, 543792032794966906370000, 8912415934410072848600000⟩,
  ⟨51049588931982477213000, 2909849162693300961300000, 1683073313425023642700000⟩,
  ⟨51049588931982477213000, 5407077523881675951100000, 2909849162693300961300000⟩,
  ⟨51049588931982477213000, 1683073313425023087600000, 5407077523881677061400000⟩,
  ⟨51049588931982477213000, 5407077523881675951100000, 1683073313425023642700000⟩,
  ⟨51049588931982477213000, 2909849162693300406200000, 5407077523881677061400000⟩,
  ⟨51049588931982477213000, 1683073313425021977400000, 2909849162693303181700000⟩,
  ⟨27318852186860777959000, 2368453944831515334300000, 485139799052083930950000⟩,
  ⟨27318852186860777959000, 7146406256116399902100000, 2368453944831515611800000⟩,
  ⟨27318852186860777959000, 485139799052083930950000, 7146406256116403232800000⟩,
  ⟨27318852186860777959000, 7146406256116401012300000, 485139799052083930950000⟩,
  ⟨27318852186860777959000, 2368453944831515611800000, 7146406256116402122600000⟩,
  ⟨27318852186860777959000, 485139799052081988060000, 2368453944831518387400000⟩,
  ⟨10055510048923629179000, 4145491529764430138600000, 47372398809321647484000⟩,
  ⟨10055510048923629179000, 5807136071426247658800000, 4145491529764430693700000⟩,
  ⟨10055510048923629179000, 47372398809321647484000, 5807136071426249879200000⟩,
  ⟨10055510048923629179000, 5807136071426247658800000, 47372398809321647484000⟩,
  ⟨10055510048923629179000, 4145491529764430138600000, 5807136071426248769000000⟩,
  ⟨10055510048923629179000, 47372398809320537261000, 4145491529764432359100000⟩,
  ⟨21341673513172406719000, 3075361882409410330100000, 221352139073682022130000⟩,
  ⟨21341673513172406719000, 6703285978516907439600000, 3075361882409410885200000⟩,
  ⟨21341673513172406719000, 221352139073682230300000, 6703285978516909660000000⟩,
  ⟨21341673513172406719000, 6703285978516907439600000, 221352139073682022130000⟩,
  ⟨21341673513172406719000, 3075361882409410885200000, 6703285978516908549800000⟩,
  ⟨21341673513172406719000, 221352139073680842520000, 3075361882409412550600000⟩,
  ⟨6439382044476833245900, 1109266644334703927300000, 43933951094666618895000⟩,
  ⟨6439382044476833245900, 8846799404570629965500000, 1109266644334703788600000⟩,
  ⟨6439382044476833245900, 43933951094667911264000, 8846799404570631075700000⟩,
  ⟨6439382044476833245900, 8846799404570629965500000, 43933951094666618895000⟩,
  ⟨6439382044476833245900, 1109266644334704343700000, 8846799404570631075700000⟩,
  ⟨6439382044476833245900, 43933951094663817316000, 1109266644334706980500000⟩,
  ⟨49631880897721006654000, 2181920158632538742100000, 2181920158632540962500000⟩,
  ⟨49631880897721006654000, 5636159682734920295400000, 2181920158632539574800000⟩,
  ⟨49631880897721006654000, 2181920158632540407400000, 5636159682734921405600000⟩,
  ⟨32999416636283872978000, 3188631220563677981500000, 551602053562473687580000⟩,
  ⟨32999416636283872978000, 6259766725873848747200000, 3188631220563677981500000⟩,
  ⟨32999416636283872978000, 551602053562473271240000, 6259766725873850967700000⟩,
  ⟨32999416636283872978000, 6259766725873847637000000, 551602053562473687580000⟩,
  ⟨32999416636283872978000, 3188631220563677981500000, 6259766725873849857500000⟩,
  ⟨32999416636283872978000, 551602053562472161020000, 3188631220563680202000000⟩,
  ⟨19311810149830205968000, 4919913444565532367700000, 160173110868935091030000⟩,
  ⟨19311810149830205968000, 4919913444565532367700000, 4919913444565532922900000⟩,
  ⟨19311810149830205968000, 160173110868934709390000, 4919913444565534588200000⟩,
  ⟨24737164044040939152000, 3953677591013827763400000, 243998884696386975080000⟩,
  ⟨24737164044040939152000, 5802323524289785261500000, 3953677591013828318500000⟩,
  ⟨24737164044040939152000, 243998884696386419970000, 5802323524289787481900000⟩,
  ⟨24737164044040939152000, 5802323524289785261500000, 243998884696386975080000⟩,
  ⟨24737164044040939152000, 3953677591013828318500000, 5802323524289786371700000⟩,
  ⟨24737164044040939152000, 243998884696385864860000, 3953677591013829983900000⟩,
  ⟨46668988848232893438000, 4533999616178052694000000, 932000767643895028370000⟩,
  ⟨46668988848232893438000, 4533999616178052694000000, 4533999616178053249100000⟩,
  ⟨46668988848232893438000, 932000767643894334480000, 4533999616178054359300000⟩,
  ⟨45907407789635510525000, 2137578302973530686200000, 1506349418291861586000000⟩,
  ⟨45907407789635510525000, 6356072278734608005400000, 2137578302973530963700000⟩,
  ⟨45907407789635510525000, 1506349418291861863600000, 6356072278734609115600000⟩,
  ⟨45907407789635510525000, 6356072278734608005400000, 1506349418291861586000000⟩,
  ⟨45907407789635510525000, 2137578302973531241300000, 6356072278734609115600000⟩,
  ⟨45907407789635510525000, 1506349418291859643100000, 2137578302973532906600000⟩,
  ⟨1467413667890087351200, 47266605105680042573000, 47266605105682913540000⟩,
  ⟨1467413667890087351200, 9905466789788636150500000, 47266605105679704302000⟩,
  ⟨1467413667890087351200, 47266605105684145194000, 9905466789788638371000000⟩,
  ⟨3220008871737158593700, 247793702175406298230000, 45023852882973627865000⟩,
  ⟨3220008871737158593700, 9707182444941619969800000, 247793702175405916590000⟩,
  ⟨3220008871737158593700, 45023852882975501366000, 9707182444941621080000000⟩,
  ⟨3220008871737158593700, 9707182444941619969800000, 45023852882973627865000⟩,
  ⟨3220008871737158593700, 247793702175406749260000, 9707182444941621080000000⟩,
  ⟨3220008871737158593700, 45023852882971494155000, 247793702175409767670000⟩]

/-- `HardcodedQuadRule<kTria, 34>()`; /repo/lib/lf/quad/quad_rules_tria.cc:7764-8412. -/
def triaTab34 : List TabRow := [
  ⟨508429861835657845950, 3851262518382809751900000, 210967602701019364690000⟩,
  ⟨508429861835657845950, 5937769878916170363000000, 3851262518382810862100000⟩,
  ⟨508429861835657845950, 210967602701019329990000, 5937769878916171473200000⟩,
  ⟨508429861835657845950, 5937769878916170363000000, 210967602701019364690000⟩,
  ⟨508429861835657845950, 3851262518382810307000000, 5937769878916171473200000⟩,
  ⟨508429861835657845950, 210967602701018497320000, 3851262518382812527500000⟩,
  ⟨3270239832937541619100, 528200673454987598700000, 33881121503900484861000⟩,
  ⟨3270239832937541619100, 9437918205041110342200000, 528200673454987529310000⟩,
  ⟨3270239832937541619100, 33881121503902544845000, 9437918205041111452400000⟩,
  ⟨3270239832937541619100, 9437918205041111452400000, 33881121503900484861000⟩,
  ⟨3270239832937541619100, 528200673454988223200000, 9437918205041113672800000⟩,
  ⟨3270239832937541619100, 33881121503897791702000, 528200673454991068150000⟩,
  ⟨11494832844045565177000, 459825951541271496500000, 459825951541274341450000⟩,
  ⟨11494832844045565177000, 9080348096917454370200000, 459825951541271496500000⟩,
  ⟨11494832844045565177000, 459825951541275590450000, 9080348096917455480400000⟩,
  ⟨7599058291308208139300, 508987652831316070290000, 182083287994723903860000⟩,
  ⟨7599058291308208139300, 9308929059173959297300000, 508987652831316070290000⟩,
  ⟨7599058291308208139300, 182083287994725395720000, 9308929059173960407500000⟩,
  ⟨7599058291308208139300, 9308929059173960407500000, 182083287994723903860000⟩,
  ⟨7599058291308208139300, 508987652831317527460000, 9308929059173960407500000⟩,
  ⟨7599058291308208139300, 182083287994721024220000, 508987652831319609130000⟩,
  ⟨5498402832316000733000, 208387475149684059380000, 208387475149687008410000⟩,
  ⟨5498402832316000733000, 9583225049700628828100000, 208387475149683816520000⟩,
  ⟨5498402832316000733000, 208387475149687806390000, 9583225049700631048600000⟩,
  ⟨23348188419729663974000, 1291243720726085175700000, 605107706433122560790000⟩,
  ⟨23348188419729663974000, 8103648572840792541100000, 1291243720726084898100000⟩,
  ⟨23348188419729663974000, 605107706433123948560000, 8103648572840792541100000⟩,
  ⟨23348188419729663974000, 8103648572840792541100000, 605107706433122560790000⟩,
  ⟨23348188419729663974000, 1291243720726086841000000, 8103648572840792541100000⟩,
  ⟨23348188419729663974000, 605107706433120895450000, 1291243720726087951300000⟩,
  ⟨14760578152810924397000, 878179027775244785970000, 359198913635777883350000⟩,
  ⟨14760578152810924397000, 8762622058588976914400000, 878179027775245063530000⟩,
  ⟨14760578152810924397000, 359198913635778160900000, 8762622058588979134800000⟩,
  ⟨14760578152810924397000, 8762622058588976914400000, 359198913635777883350000⟩,
  ⟨14760578152810924397000, 878179027775244924750000, 8762622058588979134800000⟩,
  ⟨14760578152810924397000, 359198913635775662900000, 878179027775248255420000⟩,
  ⟨19986867268246763518000, 757621741867907788630000, 757621741867910702960000⟩,
  ⟨19986867268246763518000, 8484756516264180259400000, 757621741867907788630000⟩,
  ⟨19986867268246763518000, 757621741867912090740000, 8484756516264182479900000⟩,
  ⟨58700032956288039285000, 3766019805175456758300000, 2467960389649086205800000⟩,
  ⟨58700032956288039285000, 3766019805175456758300000, 3766019805175457868500000⟩,
  ⟨58700032956288039285000, 2467960389649085095600000, 3766019805175458423600000⟩,
  ⟨49304651564523712184000, 2735537380248191929900000, 1640610286702126607800000⟩,
  ⟨49304651564523712184000, 5623852333049681462300000, 2735537380248192485000000⟩,
  ⟨49304651564523712184000, 1640610286702126607800000, 5623852333049682572500000⟩,
  ⟨49304651564523712184000, 5623852333049681462300000, 1640610286702126607800000⟩,
  ⟨49304651564523712184000, 2735537380248192485000000, 5623852333049682572500000⟩,
  ⟨49304651564523712184000, 1640610286702124942500000, 2735537380248194150300000⟩,
  ⟨8631366294208509676300, 944770656323741658820000, 106832635235884227530000⟩,
  ⟨8631366294208509676300, 8948396708440373714700000, 944770656323741658820000⟩,
  ⟨8631366294208509676300, 106832635235885597960000, 8948396708440374824900000⟩,
  ⟨8631366294208509676300, 8948396708440373714700000, 106832635235884227530000⟩,
  ⟨8631366294208509676300, 944770656323742907820000, 8948396708440374824900000⟩,
  ⟨8631366294208509676300, 106832635235881573400000, 944770656323744850710000⟩,
  ⟨58806038197068274606000, 2873558398221648935200000, 2873558398221650600500000⟩,
  ⟨58806038197068274606000, 4252883203556701019500000, 2873558398221650045400000⟩,
  ⟨58806038197068274606000, 2873558398221650600500000, 4252883203556701574600000⟩,
  ⟨25180912506669738023000, 4111522333036005116800000, 311326803063737105050000⟩,
  ⟨25180912506669738023000, 5577150863900257604700000, 4111522333036005671900000⟩,
  ⟨25180912506669738023000, 311326803063736723410000, 5577150863900259825100000⟩,
  ⟨25180912506669738023000, 5577150863900258714900000, 311326803063737105050000⟩,
  ⟨25180912506669738023000, 4111522333036005671900000, 5577150863900258714900000⟩,
  ⟨25180912506669738023000, 311326803063736168300000, 4111522333036007337300000⟩,
  ⟨48289401147234116418000, 3594475694982552926900000, 1331926232217058303500000⟩,
  ⟨48289401147234116418000, 5073598072800389324800000, 3594475694982554037100000⟩,
  ⟨48289401147234116418000, 1331926232217057748400000, 5073598072800390435000000⟩,
  ⟨48289401147234116418000, 5073598072800389324800000, 1331926232217058303500000⟩,
  ⟨48289401147234116418000, 3594475694982552926900000, 5073598072800389324800000⟩,
  ⟨48289401147234116418000, 1331926232217057193300000, 3594475694982555147300000⟩,
  ⟨38059575104429452935000, 3884100853304370826200000, 742973192372942126130000⟩,
  ⟨38059575104429452935000, 5372925954322688157900000, 3884100853304371381300000⟩,
  ⟨38059575104429452935000, 742973192372941571020000, 5372925954322689268100000⟩,
  ⟨38059575104429452935000, 5372925954322687047700000, 742973192372942126130000⟩,
  ⟨38059575104429452935000, 3884100853304370271100000, 5372925954322688157900000⟩,
  ⟨38059575104429452935000, 742973192372941015900000, 3884100853304373046600000⟩,
  ⟨55329319437995736972000, 3253550433420577259200000, 2051664978147619555800000⟩,
  ⟨55329319437995736972000, 4694784588431804017700000, 3253550433420577814300000⟩,
  ⟨55329319437995736972000, 2051664978147618723100000, 4694784588431805127900000⟩,
  ⟨55329319437995736972000, 4694784588431803462600000, 2051664978147619555800000⟩,
  ⟨55329319437995736972000, 3253550433420577814300000, 4694784588431804572800000⟩,
  ⟨55329319437995736972000, 2051664978147618168000000, 3253550433420578924500000⟩,
  ⟨32519198563248788783000, 1747804794810683959300000, 902196061251755165870000⟩,
  ⟨32519198563248788783000, 7349999143937561152400000, 1747804794810684236900000⟩,
  ⟨32519198563248788783000, 902196061251755443420000, 7349999143937562262600000⟩,
  ⟨32519198563248788783000, 7349999143937561152400000, 902196061251755165870000⟩,
  ⟨32519198563248788783000, 1747804794810685069500000, 7349999143937561152400000⟩,
  ⟨32519198563248788783000, 902196061251753222980000, 1747804794810686734900000⟩,
  ⟨24163436267425498355000, 1941646181495632894600000, 439158729045114326620000⟩,
  ⟨24163436267425498355000, 7619195089459251946100000, 1941646181495632894600000⟩,
  ⟨24163436267425498355000, 439158729045114881730000, 7619195089459254166500000⟩,
  ⟨24163436267425498355000, 7619195089459251946100000, 439158729045114326620000⟩,
  ⟨24163436267425498355000, 1941646181495633172200000, 7619195089459254166500000⟩,
  ⟨24163436267425498355000, 439158729045112661280000, 1941646181495635392600000⟩,
  ⟨32421126069192675659000, 4744124989028455918700000, 511750021943088440060000⟩,
  ⟨32421126069192675659000, 4744124989028455918700000, 4744124989028456473900000⟩,
  ⟨32421126069192675659000, 511750021943087884950000, 4744124989028458139200000⟩,
  ⟨32967572338747272963000, 2483278734045789581900000, 689638299646016944560000⟩,
  ⟨32967572338747272963000, 6827082966308193334700000, 2483278734045789859500000⟩,
  ⟨32967572338747272963000, 689638299646017638440000, 6827082966308194444900000⟩,
  ⟨32967572338747272963000, 6827082966308193334700000, 689638299646016944560000⟩,
  ⟨32967572338747272963000, 2483278734045790137100000, 6827082966308194444900000⟩,
  ⟨32967572338747272963000, 689638299646015279220000, 2483278734045792079900000⟩,
  ⟨41426332565503379973000, 2229920412612008684400000, 1251817981428866577400000⟩,
  ⟨41426332565503379973000, 6518261605959124738200000, 2229920412612009239500000⟩,
  ⟨41426332565503379973000, 1251817981428866577400000, 6518261605959125848400000⟩,
  ⟨41426332565503379973000, 6518261605959124738200000, 1251817981428866577400000⟩,
  ⟨41426332565503379973000, 2229920412612008684400000, 6518261605959125848400000⟩,
  ⟨41426332565503379973000, 1251817981428865467200000, 2229920412612011182400000⟩,
  ⟨6997146927015450391600, 1496044235489510931800000, 46702985612832939588000⟩,
  ⟨6997146927015450391600, 8457252778897655920400000, 1496044235489510931800000⟩,
  ⟨6997146927015450391600, 46702985612833702866000, 8457252778897658140900000⟩,
  ⟨6997146927015450391600, 8457252778897657030700000, 46702985612832939588000⟩,
  ⟨6997146927015450391600, 1496044235489512042000000, 8457252778897657030700000⟩,
  ⟨6997146927015450391600, 46702985612830372197000, 1496044235489514262500000⟩,
  ⟨29167168397771191246000, 1111727012858456098400000, 1111727012858458735200000⟩,
  ⟨29167168397771191246000, 7776545974283084472500000, 1111727012858456514800000⟩,
  ⟨29167168397771191246000, 1111727012858458874000000, 7776545974283086692900000⟩,
  ⟨18646854717090908821000, 4918649619576896947500000, 162700760846206521350000⟩,
  ⟨18646854717090908821000, 4918649619576896947500000, 4918649619576897502600000⟩,
  ⟨18646854717090908821000, 162700760846205549900000, 4918649619576899167900000⟩,
  ⟨30476320162441776496000, 3283914136921265991600000, 489259225038644121610000⟩,
  ⟨30476320162441776496000, 6226826638040090511300000, 3283914136921266546700000⟩,
  ⟨30476320162441776496000, 489259225038643497110000, 6226826638040091621600000⟩,
  ⟨30476320162441776496000, 6226826638040089401100000, 489259225038644121610000⟩,
  ⟨30476320162441776496000, 3283914136921266546700000, 6226826638040090511300000⟩,
  ⟨30476320162441776496000, 489259225038643219550000, 3283914136921268212000000⟩,
  ⟨38436553429818500274000, 1508877227628729056400000, 1508877227628731554400000⟩,
  ⟨38436553429818500274000, 6982245544742539111700000, 1508877227628729056400000⟩,
  ⟨38436553429818500274000, 1508877227628732109500000, 6982245544742540222000000⟩,
  ⟨15716030740796479905000, 1423855003245428074700000, 246582497782073459260000⟩,
  ⟨15716030740796479905000, 8329562498972498119100000, 1423855003245428074700000⟩,
  ⟨15716030740796479905000, 246582497782074083760000, 8329562498972500339500000⟩,
  ⟨15716030740796479905000, 8329562498972499229300000, 246582497782073459260000⟩,
  ⟨15716030740796479905000, 1423855003245429462500000, 8329562498972499229300000⟩,
  ⟨15716030740796479905000, 246582497782071724530000, 1423855003245431405400000⟩,
  ⟨11156658966766529097000, 4238402997203688515900000, 59599432497442752718000⟩,
  ⟨11156658966766529097000, 5701997570298869000300000, 4238402997203688515900000⟩,
  ⟨11156658966766529097000, 59599432497442483836000, 5701997570298871220700000⟩,
  ⟨11156658966766529097000, 5701997570298869000300000, 59599432497442752718000⟩,
  ⟨11156658966766529097000, 4238402997203689071000000, 5701997570298870110500000⟩,
  ⟨11156658966766529097000, 59599432497441651169000, 4238402997203691291400000⟩,
  ⟨1134806783854719472000, 41579573923189250620000, 41579573923192069546000⟩,
  ⟨1134806783854719472000, 9916840852153617769100000, 41579573923188868981000⟩,
  ⟨1134806783854719472000, 41579573923193891005000, 9916840852153618879300000⟩,
  ⟨54068496581348261809000, 2404349104138167603200000, 2404349104138169268600000⟩,
  ⟨54068496581348261809000, 5191301791723663683300000, 2404349104138168158300000⟩,
  ⟨54068496581348261809000, 2404349104138168713400000, 5191301791723664793600000⟩,
  ⟨22178654867209828157000, 2676904193443055968200000, 285187228422853940310000⟩,
  ⟨22178654867209828157000, 7037908578134091097700000, 2676904193443055968200000⟩,
  ⟨22178654867209828157000, 285187228422855154620000, 7037908578134091097700000⟩,
  ⟨22178654867209828157000, 7037908578134089987400000, 285187228422853940310000⟩,
  ⟨22178654867209828157000, 2676904193443055968200000, 7037908578134091097700000⟩,
  ⟨22178654867209828157000, 285187228422852101510000, 2676904193443058743700000⟩,
  ⟨53237224212444788848000, 4155115967448371749900000, 1689768065103256777800000⟩,
  ⟨53237224212444788848000, 4155115967448371749900000, 4155115967448372305000000⟩,
  ⟨53237224212444788848000, 1689768065103256222700000, 4155115967448373415200000⟩,
  ⟨3804630831090514259600, 4995421826615117910600000, 9156346769764574450600⟩,
  ⟨3804630831090514259600, 4995421826615117355500000, 4995421826615118465800000⟩,
  ⟨3804630831090514259600, 9156346769763901161100, 4995421826615120131100000⟩,
  ⟨17441636728719180863000, 3454113789529011380200000, 155626433010154947840000⟩,
  ⟨17441636728719180863000, 6390259777460833845500000, 3454113789529011935300000⟩,
  ⟨17441636728719180863000, 155626433010154219260000, 6390259777460836065900000⟩,
  ⟨17441636728719180863000, 6390259777460833845500000, 155626433010154947840000⟩,
  ⟨17441636728719180863000, 3454113789529011380200000, 6390259777460834955700000⟩,
  ⟨17441636728719180863000, 155626433010153941710000, 3454113789529013600600000⟩,
  ⟨3659229368350565498100, 3534495196576637465700000, 9257182339338348303600⟩,
  ⟨3659229368350565498100, 6456247621084023613500000, 3534495196576638020900000⟩,
  ⟨3659229368350565498100, 9257182339338365650900, 6456247621084025833900000⟩,
  ⟨3659229368350565498100, 6456247621084024723700000, 9257182339338348303600⟩,
  ⟨3659229368350565498100, 3534495196576638020900000, 6456247621084025833900000⟩,
  ⟨3659229368350565498100, 9257182339337255427800, 3534495196576640241300000⟩,
  ⟨44304696500765301803000, 4485642658787082348600000, 1028714682425835164100000⟩,
  ⟨44304696500765301803000, 4485642658787082348600000, 4485642658787083458800000⟩,
  ⟨44304696500765301803000, 1028714682425833915100000, 4485642658787085124100000⟩,
  ⟨41253987153764843515000, 3033356394717891535400000, 992862116185854320930000⟩,
  ⟨41253987153764843515000, 5973781489096253727300000, 3033356394717892645700000⟩,
  ⟨41253987153764843515000, 992862116185854182150000, 5973781489096254837500000⟩,
  ⟨41253987153764843515000, 5973781489096253727300000, 992862116185854320930000⟩,
  ⟨41253987153764843515000, 3033356394717892090500000, 5973781489096254837500000⟩,
  ⟨41253987153764843515000, 992862116185852516810000, 3033356394717894311000000⟩,
  ⟨2489837865985594926800, 217555603201839350970000, 39745058725184773118000⟩,
  ⟨2489837865985594926800, 9742699338072974280000000, 217555603201839281580000⟩,
  ⟨2489837865985594926800, 39745058725186299675000, 9742699338072976500400000⟩,
  ⟨2489837865985594926800, 9742699338072975390200000, 39745058725184773118000⟩,
  ⟨2489837865985594926800, 217555603201840530580000, 9742699338072976500400000⟩,
  ⟨2489837865985594926800, 39745058725182275117000, 217555603201842473470000⟩,
  ⟨60504824650855753426000, 3333333333333332593200000, 3333333333333334258500000⟩,
  ⟨14029090686568663603000, 2075468682735204517500000, 137796394053688077420000⟩,
  ⟨14029090686568663603000, 7786734923211107162200000, 2075468682735204517500000⟩,
  ⟨14029090686568663603000, 137796394053689152950000, 7786734923211108272400000⟩,
  ⟨14029090686568663603000, 7786734923211107162200000, 137796394053688077420000⟩,
  ⟨14029090686568663603000, 2075468682735204795100000, 7786734923211108272400000⟩,
  ⟨14029090686568663603000, 137796394053686099830000, 2075468682735207015500000⟩,
  ⟨47000705185991885349000, 1943865435789661200200000, 1943865435789663698200000⟩,
  ⟨47000705185991885349000, 6112269128420674269000000, 1943865435789661755300000⟩,
  ⟨47000705185991885349000, 1943865435789663975700000, 6112269128420676489500000⟩,
  ⟨2888252871173798796800, 2135602395179478363300000, 7721391203270434964300⟩,
  ⟨2888252871173798796800, 7856676213617250770200000, 2135602395179478363300000⟩,
  ⟨2888252871173798796800, 7721391203271421588300, 7856676213617251880400000⟩,
  ⟨2888252871173798796800, 7856676213617251880400000, 7721391203270434964300⟩,
  ⟨2888252871173798796800, 2135602395179479473500000, 7856676213617251880400000⟩,
  ⟨2888252871173798796800, 7721391203268507252800, 2135602395179481416400000⟩,
  ⟨9813144027416705831400, 2793864317822237208800000, 54617908942934485436000⟩,
  ⟨9813144027416705831400, 7151517773234827846100000, 2793864317822237763900000⟩,
  ⟨9813144027416705831400, 54617908942934390026000, 7151517773234830066500000⟩,
  ⟨9813144027416705831400, 7151517773234827846100000, 54617908942934485436000⟩,
  ⟨9813144027416705831400, 2793864317822237763900000, 7151517773234830066500000⟩,
  ⟨9813144027416705831400, 54617908942933002248000, 2793864317822240539400000⟩,
  ⟨1436726773040673669300, 968669225755471735570000, 47096910185453920363⟩,
  ⟨1436726773040673669300, 9031283677334341897200000, 968669225755471458020000⟩,
  ⟨1436726773040673669300, 47096910186783524921, 9031283677334344117700000⟩,
  ⟨1436726773040673669300, 9031283677334343007500000, 47096910185453920363⟩,
  ⟨1436726773040673669300, 968669225755472429460000, 9031283677334344117700000⟩,
  ⟨1436726773040673669300, 47096910183036522213, 968669225755474927460000⟩]

/-- `HardcodedQuadRule<kTria, 35>()`; /repo/lib/lf/quad/quad_rules_tria.cc:8416-9106. -/
def triaTab35 : List TabRow := [
  ⟨28739670148350926308000, 3014351686173179500900000, 3014351686173181166200000⟩,
  ⟨28739670148350926308000, 3971296627653639332900000, 3014351686173181166200000⟩,
  ⟨28739670148350926308000, 3014351686173180056000000, 3971296627653640443100000⟩,
  ⟨11481840460497157001000, 4916414039828906901200000, 167171920342186197670000⟩,
  ⟨11481840460497157001000, 4916414039828906901200000, 4916414039828907456300000⟩,
  ⟨11481840460497157001000, 167171920342185642560000, 4916414039828909121600000⟩,
  ⟨39976754209321580663000, 3577931357985970617400000, 2844137284028058210200000⟩,
  ⟨39976754209321580663000, 3577931357985970617400000, 3577931357985972282700000⟩,
  ⟨39976754209321580663000, 2844137284028056544800000, 3577931357985972837800000⟩,
  ⟨2270996911876987933700, 550454796915316388330000, 20682202154059426032000⟩,
  ⟨2270996911876987933700, 9428863000930624016500000, 550454796915316388330000⟩,
  ⟨2270996911876987933700, 20682202154061468669000, 9428863000930624016500000⟩,
  ⟨2270996911876987933700, 9428863000930625126700000, 20682202154059426032000⟩,
  ⟨2270996911876987933700, 550454796915317845500000, 9428863000930624016500000⟩,
  ⟨2270996911876987933700, 20682202154057235943000, 550454796915320204720000⟩,
  ⟨9858746654920855657200, 4453764649152974763900000, 89049941861278156946000⟩,
  ⟨9858746654920855657200, 5457185408985746333200000, 4453764649152975319000000⟩,
  ⟨9858746654920855657200, 89049941861278347766000, 5457185408985748553700000⟩,
  ⟨9858746654920855657200, 5457185408985746333200000, 89049941861278156946000⟩,
  ⟨9858746654920855657200, 4453764649152975874100000, 5457185408985747443500000⟩,
  ⟨9858746654920855657200, 89049941861276959987000, 4453764649152977539400000⟩,
  ⟨3913331527196769132000, 1523840025243152485100000, 21159775630398675560000⟩,
  ⟨3913331527196769132000, 8455000199126448956500000, 1523840025243152485100000⟩,
  ⟨3913331527196769132000, 21159775630399391133000, 8455000199126450066700000⟩,
  ⟨3913331527196769132000, 8455000199126448956500000, 21159775630398675560000⟩,
  ⟨3913331527196769132000, 1523840025243153872800000, 8455000199126450066700000⟩,
  ⟨3913331527196769132000, 21159775630396060464000, 1523840025243156093300000⟩,
  ⟨43950929466639006640000, 2624139601093454232700000, 2624139601093455898000000⟩,
  ⟨43950929466639006640000, 4751720797813089314200000, 2624139601093455342900000⟩,
  ⟨43950929466639006640000, 2624139601093455898000000, 4751720797813090979600000⟩,
  ⟨6323465511985855739800, 3975166100282312986500000, 32612734291312499291000⟩,
  ⟨6323465511985855739800, 5992221165426374618300000, 3975166100282313541600000⟩,
  ⟨6323465511985855739800, 32612734291311840096000, 5992221165426376838800000⟩,
  ⟨6323465511985855739800, 5992221165426373508100000, 32612734291312499291000⟩,
  ⟨6323465511985855739800, 3975166100282313541600000, 5992221165426374618300000⟩,
  ⟨6323465511985855739800, 32612734291311007429000, 3975166100282316317100000⟩,
  ⟨41601833061628143082000, 4028164505857818600300000, 1943670988284363354600000⟩,
  ⟨41601833061628143082000, 4028164505857818600300000, 4028164505857819155400000⟩,
  ⟨41601833061628143082000, 1943670988284361966800000, 4028164505857820265600000⟩,
  ⟨17786281304547570028000, 1560787694034760919600000, 451678948131286547850000⟩,
  ⟨17786281304547570028000, 7987533357833951352900000, 1560787694034761197100000⟩,
  ⟨17786281304547570028000, 451678948131287727460000, 7987533357833953573400000⟩,
  ⟨17786281304547570028000, 7987533357833952463200000, 451678948131286547850000⟩,
  ⟨17786281304547570028000, 1560787694034762029800000, 7987533357833953573400000⟩,
  ⟨17786281304547570028000, 451678948131284396790000, 1560787694034764250300000⟩,
  ⟨26375941425807476054000, 4730889655006641492100000, 538220689986717223950000⟩,
  ⟨26375941425807476054000, 4730889655006641492100000, 4730889655006642047200000⟩,
  ⟨26375941425807476054000, 538220689986716460670000, 4730889655006643712600000⟩,
  ⟨9214163315877533372300, 1972956762765587235300000, 86060217057568298704000⟩,
  ⟨9214163315877533372300, 7940983020176843876200000, 1972956762765586957700000⟩,
  ⟨9214163315877533372300, 86060217057569166066000, 7940983020176846096700000⟩,
  ⟨9214163315877533372300, 7940983020176844986400000, 86060217057568298704000⟩,
  ⟨9214163315877533372300, 1972956762765587512800000, 7940983020176846096700000⟩,
  ⟨9214163315877533372300, 86060217057566112953000, 1972956762765590288400000⟩,
  ⟨6644899678270796417000, 500938368999261987580000, 139743532515683617500000⟩,
  ⟨6644899678270796417000, 9359318098485054360200000, 500938368999261571250000⟩,
  ⟨6644899678270796417000, 139743532515685942030000, 9359318098485054360200000⟩,
  ⟨6644899678270796417000, 9359318098485054360200000, 139743532515683617500000⟩,
  ⟨6644899678270796417000, 500938368999261363080000, 9359318098485057690900000⟩,
  ⟨6644899678270796417000, 139743532515681015420000, 500938368999265110080000⟩,
  ⟨45117064275531143167000, 2988590630143190818300000, 1874713324998945052100000⟩,
  ⟨45117064275531143167000, 5136696044857864684700000, 2988590630143191928500000⟩,
  ⟨45117064275531143167000, 1874713324998944497000000, 5136696044857865795000000⟩,
  ⟨45117064275531143167000, 5136696044857864684700000, 1874713324998945052100000⟩,
  ⟨45117064275531143167000, 2988590630143191373400000, 5136696044857865795000000⟩,
  ⟨45117064275531143167000, 1874713324998943386700000, 2988590630143193038700000⟩,
  ⟨14841033195258017223000, 628680490440657047110000, 628680490440660100230000⟩,
  ⟨14841033195258017223000, 8742639019118683130200000, 628680490440656630780000⟩,
  ⟨14841033195258017223000, 628680490440661210450000, 8742639019118684240400000⟩,
  ⟨38025912652681799486000, 4415974337549303241300000, 1168051324901393101000000⟩,
  ⟨38025912652681799486000, 4415974337549303241300000, 4415974337549304351600000⟩,
  ⟨38025912652681799486000, 1168051324901392407100000, 4415974337549305461800000⟩,
  ⟨5065605163690396241200, 196271599834707231870000, 196271599834710389070000⟩,
  ⟨5065605163690396241200, 9607456800330581581100000, 196271599834707197170000⟩,
  ⟨5065605163690396241200, 196271599834711429900000, 9607456800330583801500000⟩,
  ⟨43027522470419268114000, 3347633432653313589900000, 2327223440759485229000000⟩,
  ⟨43027522470419268114000, 4325143126587202013800000, 3347633432653314700100000⟩,
  ⟨43027522470419268114000, 2327223440759483841200000, 4325143126587203124000000⟩,
  ⟨43027522470419268114000, 4325143126587202013800000, 2327223440759485229000000⟩,
  ⟨43027522470419268114000, 3347633432653313589900000, 4325143126587202013800000⟩,
  ⟨43027522470419268114000, 2327223440759483841200000, 3347633432653315255200000⟩,
  ⟨18052339984969175812000, 2093728249763753546100000, 290018846146845241110000⟩,
  ⟨18052339984969175812000, 7616252904089401143400000, 2093728249763753823700000⟩,
  ⟨18052339984969175812000, 290018846146845588050000, 7616252904089403363800000⟩,
  ⟨18052339984969175812000, 7616252904089401143400000, 290018846146845241110000⟩,
  ⟨18052339984969175812000, 2093728249763754378800000, 7616252904089402253600000⟩,
  ⟨18052339984969175812000, 290018846146843506380000, 2093728249763756321700000⟩,
  ⟨17617803836053995154000, 1065647448613834258300000, 535674828677535283530000⟩,
  ⟨17617803836053995154000, 8398677722708629556100000, 1065647448613834674700000⟩,
  ⟨17617803836053995154000, 535674828677535908030000, 8398677722708631776500000⟩,
  ⟨17617803836053995154000, 8398677722708630666300000, 535674828677535283530000⟩,
  ⟨17617803836053995154000, 1065647448613835646100000, 8398677722708631776500000⟩,
  ⟨17617803836053995154000, 535674828677533132470000, 1065647448613837866600000⟩,
  ⟨6890382610031833658700, 3213626276695433214800000, 34961943491435237656000⟩,
  ⟨6890382610031833658700, 6751411779813131230900000, 3213626276695433770000000⟩,
  ⟨6890382610031833658700, 34961943491436109355000, 6751411779813132341100000⟩,
  ⟨6890382610031833658700, 6751411779813131230900000, 34961943491435237656000⟩,
  ⟨6890382610031833658700, 3213626276695433770000000, 6751411779813132341100000⟩,
  ⟨6890382610031833658700, 34961943491433888909000, 3213626276695435990400000⟩,
  ⟨3475147929759285665700, 2415870263479875379400000, 11760427968417566137000⟩,
  ⟨3475147929759285665700, 7572369308551706312800000, 2415870263479875657000000⟩,
  ⟨3475147929759285665700, 11760427968418030176000, 7572369308551708533300000⟩,
  ⟨3475147929759285665700, 7572369308551707423000000, 11760427968417566137000⟩,
  ⟨3475147929759285665700, 2415870263479876212100000, 7572369308551708533300000⟩,
  ⟨3475147929759285665700, 11760427968416087285000, 2415870263479878432600000⟩,
  ⟨40648602990389984257000, 3331530997207648447900000, 1139539287441483778100000⟩,
  ⟨40648602990389984257000, 5528929715350867635200000, 3331530997207649003000000⟩,
  ⟨40648602990389984257000, 1139539287441483361700000, 5528929715350869855700000⟩,
  ⟨40648602990389984257000, 5528929715350867635200000, 1139539287441483778100000⟩,
  ⟨40648602990389984257000, 3331530997207648447900000, 5528929715350868745500000⟩,
  ⟨40648602990389984257000, 1139539287441482251500000, 3331530997207651223500000⟩,
  ⟨27448281799333559133000, 1551165548133034422000000, 849385995115550379570000⟩,
  ⟨27448281799333559133000, 7599448456751416447500000, 1551165548133034422000000⟩,
  ⟨27448281799333559133000, 849385995115551351020000, 7599448456751416447500000⟩,
  ⟨27448281799333559133000, 7599448456751415337300000, 849385995115550379570000⟩,
  ⟨27448281799333559133000, 1551165548133034422000000, 7599448456751416447500000⟩,
  ⟨27448281799333559133000, 849385995115548297910000, 1551165548133037197500000⟩,
  ⟨41179936614291279620000, 3710141516774618786200000, 1525651863472163583000000⟩,
  ⟨41179936614291279620000, 4764206619753217908400000, 3710141516774619896400000⟩,
  ⟨41179936614291279620000, 1525651863472162750300000, 4764206619753219573700000⟩,
  ⟨41179936614291279620000, 4764206619753217353300000, 1525651863472163583000000⟩,
  ⟨41179936614291279620000, 3710141516774619896400000, 4764206619753217908400000⟩,
  ⟨41179936614291279620000, 1525651863472162750300000, 3710141516774621006600000⟩,
  ⟨10324178132991635760000, 402868688301933966510000, 402868688301937089010000⟩,
  ⟨10324178132991635760000, 9194262623396128875100000, 402868688301933897120000⟩,
  ⟨10324178132991635760000, 402868688301938893130000, 9194262623396128875100000⟩,
  ⟨13898867596812847919000, 2708836618077720692600000, 136186781090766283190000⟩,
  ⟨13898867596812847919000, 7154976600831512989500000, 2708836618077720692600000⟩,
  ⟨13898867596812847919000, 136186781090766872990000, 7154976600831515209900000⟩,
  ⟨13898867596812847919000, 7154976600831512989500000, 136186781090766283190000⟩,
  ⟨13898867596812847919000, 2708836618077720137500000, 7154976600831515209900000⟩,
  ⟨13898867596812847919000, 136186781090764652550000, 2708836618077723468200000⟩,
  ⟨31658909407417004482000, 3525067484154664754200000, 562263874435523919320000⟩,
  ⟨31658909407417004482000, 5912668641409811742800000, 3525067484154665309300000⟩,
  ⟨31658909407417004482000, 562263874435524058090000, 5912668641409812853000000⟩,
  ⟨31658909407417004482000, 5912668641409810632600000, 562263874435523919320000⟩,
  ⟨31658909407417004482000, 3525067484154665309300000, 5912668641409811742800000⟩,
  ⟨31658909407417004482000, 562263874435522115200000, 3525067484154667529800000⟩,
  ⟨34728553599707953116000, 4057201327781904676200000, 817534894396882150240000⟩,
  ⟨34728553599707953116000, 5125263777821212896100000, 4057201327781905231300000⟩,
  ⟨34728553599707953116000, 817534894396881317570000, 5125263777821215116500000⟩,
  ⟨34728553599707953116000, 5125263777821212896100000, 817534894396882150240000⟩,
  ⟨34728553599707953116000, 4057201327781905231300000, 5125263777821214006300000⟩,
  ⟨34728553599707953116000, 817534894396881317570000, 4057201327781906341500000⟩,
  ⟨27829705578430474246000, 2189496810149983430100000, 636424301897473843060000⟩,
  ⟨27829705578430474246000, 7174078887952541894200000, 2189496810149983707600000⟩,
  ⟨27829705578430474246000, 636424301897474675730000, 7174078887952544114600000⟩,
  ⟨27829705578430474246000, 7174078887952543004400000, 636424301897473843060000⟩,
  ⟨27829705578430474246000, 2189496810149983430100000, 7174078887952544114600000⟩,
  ⟨27829705578430474246000, 636424301897472177720000, 2189496810149986205700000⟩,
  ⟨36688050783813411573000, 2067092480855645120200000, 1153942208360741045200000⟩,
  ⟨36688050783813411573000, 6778965310783613418300000, 2067092480855645397800000⟩,
  ⟨36688050783813411573000, 1153942208360741461500000, 6778965310783614528500000⟩,
  ⟨36688050783813411573000, 6778965310783613418300000, 1153942208360741045200000⟩,
  ⟨36688050783813411573000, 2067092480855646230400000, 6778965310783614528500000⟩,
  ⟨36688050783813411573000, 1153942208360738686000000, 2067092480855647895800000⟩,
  ⟨25018198077786674843000, 985261546687923595030000, 985261546687925954260000⟩,
  ⟨25018198077786674843000, 8029476906624150034400000, 985261546687924011370000⟩,
  ⟨25018198077786674843000, 985261546687926648150000, 8029476906624151144600000⟩,
  ⟨43557133117804363101000, 2566010878790922489200000, 1481871162833107158400000⟩,
  ⟨43557133117804363101000, 5952117958375969797300000, 2566010878790923599400000⟩,
  ⟨43557133117804363101000, 1481871162833107158400000, 5952117958375970907500000⟩,
  ⟨43557133117804363101000, 5952117958375970907500000, 1481871162833107158400000⟩,
  ⟨43557133117804363101000, 2566010878790923044300000, 5952117958375970907500000⟩,
  ⟨43557133117804363101000, 1481871162833105493000000, 2566010878790925264800000⟩,
  ⟨13683747163610101173000, 1382062952112499687500000, 185978710613813984220000⟩,
  ⟨13683747163610101173000, 8431958337273686154800000, 1382062952112499409900000⟩,
  ⟨13683747163610101173000, 185978710613814990360000, 8431958337273687265100000⟩,
  ⟨13683747163610101173000, 8431958337273686154800000, 185978710613813984220000⟩,
  ⟨13683747163610101173000, 1382062952112501075200000, 8431958337273687265100000⟩,
  ⟨13683747163610101173000, 185978710613811659690000, 1382062952112502740600000⟩,
  ⟨33595399062086978535000, 1395344629893072729800000, 1395344629893075227800000⟩,
  ⟨33595399062086978535000, 7209310740213852319900000, 1395344629893072729800000⟩,
  ⟨33595399062086978535000, 1395344629893075505400000, 7209310740213853430100000⟩,
  ⟨45809544704686535471000, 2215360105096919607300000, 2215360105096922105300000⟩,
  ⟨45809544704686535471000, 5569279789806158564900000, 2215360105096920717600000⟩,
  ⟨45809544704686535471000, 2215360105096921272700000, 5569279789806159675100000⟩,
  ⟨23508287904660928741000, 4258102085854810203700000, 329710199269463780090000⟩,
  ⟨23508287904660928741000, 5412187714875726918300000, 4258102085854810203700000⟩,
  ⟨23508287904660928741000, 329710199269463433150000, 5412187714875728028500000⟩,
  ⟨23508287904660928741000, 5412187714875725808000000, 329710199269463780090000⟩,
  ⟨23508287904660928741000, 4258102085854810203700000, 5412187714875726918300000⟩,
  ⟨23508287904660928741000, 329710199269462878040000, 4258102085854812424200000⟩,
  ⟨41859533185064834102000, 1807503221352995681500000, 1807503221352997624400000⟩,
  ⟨41859533185064834102000, 6384993557294007526800000, 1807503221352995959000000⟩,
  ⟨41859533185064834102000, 1807503221352997901900000, 6384993557294008637000000⟩,
  ⟨35875044799663596655000, 2797259269522401892200000, 853795515729538628810000⟩,
  ⟨35875044799663596655000, 6348945214748059617800000, 2797259269522402447300000⟩,
  ⟨35875044799663596655000, 853795515729537934920000, 6348945214748061838300000⟩,
  ⟨35875044799663596655000, 6348945214748059617800000, 853795515729538628810000⟩,
  ⟨35875044799663596655000, 2797259269522401892200000, 6348945214748060728000000⟩,
  ⟨35875044799663596655000, 853795515729536824700000, 2797259269522404112600000⟩,
  ⟨2366234869002446653300, 224666835802111858330000, 36330558429339657352000⟩,
  ⟨2366234869002446653300, 9739002605768547482500000, 224666835802111650170000⟩,
  ⟨2366234869002446653300, 36330558429341630600000, 9739002605768549703000000⟩,
  ⟨2366234869002446653300, 9739002605768547482500000, 36330558429339657352000⟩,
  ⟨2366234869002446653300, 224666835802113107330000, 9739002605768549703000000⟩,
  ⟨2366234869002446653300, 36330558429336322346000, 224666835802114842060000⟩,
  ⟨12673310556838911049000, 838622585244554186180000, 260200776623639613850000⟩,
  ⟨12673310556838911049000, 8901176638131805818300000, 838622585244554186180000⟩,
  ⟨12673310556838911049000, 260200776623639717930000, 8901176638131808038800000⟩,
  ⟨12673310556838911049000, 8901176638131805818300000, 260200776623639613850000⟩,
  ⟨12673310556838911049000, 838622585244554463730000, 8901176638131808038800000⟩,
  ⟨12673310556838911049000, 260200776623637219930000, 838622585244557794400000⟩,
  ⟨25350786500057003771000, 2848003464144682750400000, 394569261564381226770000⟩,
  ⟨25350786500057003771000, 6757427274290934704500000, 2848003464144683305500000⟩,
  ⟨25350786500057003771000, 394569261564381434940000, 6757427274290936924900000⟩,
  ⟨25350786500057003771000, 6757427274290935814700000, 394569261564381226770000⟩,
  ⟨25350786500057003771000, 2848003464144682750400000, 6757427274290936924900000⟩,
  ⟨25350786500057003771000, 394569261564380047160000, 2848003464144685525900000⟩,
  ⟨20270360434420132967000, 3565941035365738365200000, 197707177044081881810000⟩,
  ⟨20270360434420132967000, 6236351787590179718300000, 3565941035365738365200000⟩,
  ⟨20270360434420132967000, 197707177044082471620000, 6236351787590180828500000⟩,
  ⟨20270360434420132967000, 6236351787590179718300000, 197707177044081881810000⟩,
  ⟨20270360434420132967000, 3565941035365737810100000, 6236351787590180828500000⟩,
  ⟨20270360434420132967000, 197707177044080806280000, 3565941035365740585700000⟩,
  ⟨6272391936205086535700, 974242311151380380170000, 50286974156273870490000⟩,
  ⟨6272391936205086535700, 8975470714692345142200000, 974242311151380380170000⟩,
  ⟨6272391936205086535700, 50286974156275032755000, 8975470714692347362600000⟩,
  ⟨6272391936205086535700, 8975470714692346252400000, 50286974156273870490000⟩,
  ⟨6272391936205086535700, 974242311151381490400000, 8975470714692347362600000⟩,
  ⟨6272391936205086535700, 50286974156271493919000, 974242311151383572070000⟩,
  ⟨1201668687024206542300, 42772072684829562372000, 42772072684832546097000⟩,
  ⟨1201668687024206542300, 9914455854630337405800000, 42772072684829345532000⟩,
  ⟨1201668687024206542300, 42772072684834072653000, 9914455854630338516000000⟩,
  ⟨3137921705352825847900, 4999132224862251061600000, 1735550275497674949400⟩,
  ⟨3137921705352825847900, 4999132224862250506400000, 4999132224862252171800000⟩,
  ⟨3137921705352825847900, 1735550275497044214700, 4999132224862253282000000⟩]

/-- `HardcodedQuadRule<kTria, 36>()`; /repo/lib/lf/quad/quad_rules_tria.cc:9110-9845. -/
def triaTab36 : List TabRow := [
  ⟨15308415835340899881000, 2550023360754195000900000, 322922639737693653590000⟩,
  ⟨15308415835340899881000, 7127053999508111692400000, 2550023360754195000900000⟩,
  ⟨15308415835340899881000, 322922639737694416870000, 7127053999508112802600000⟩,
  ⟨15308415835340899881000, 7127053999508111692400000, 322922639737693653590000⟩,
  ⟨15308415835340899881000, 2550023360754195556100000, 7127053999508112802600000⟩,
  ⟨15308415835340899881000, 322922639737692196430000, 2550023360754197776500000⟩,
  ⟨24616359876450232685000, 2711215136033399697400000, 941402098044081675490000⟩,
  ⟨24616359876450232685000, 6347382765922519043400000, 2711215136033400252600000⟩,
  ⟨24616359876450232685000, 941402098044081814270000, 6347382765922520153600000⟩,
  ⟨24616359876450232685000, 6347382765922519043400000, 941402098044081675490000⟩,
  ⟨24616359876450232685000, 2711215136033400252600000, 6347382765922520153600000⟩,
  ⟨24616359876450232685000, 941402098044079593820000, 2711215136033402473000000⟩,
  ⟨16618604216976163093000, 926886044848755363820000, 649936721042402160140000⟩,
  ⟨16618604216976163093000, 8423177234108841782100000, 926886044848755502600000⟩,
  ⟨16618604216976163093000, 649936721042403409140000, 8423177234108842892400000⟩,
  ⟨16618604216976163093000, 8423177234108842892400000, 649936721042402160140000⟩,
  ⟨16618604216976163093000, 926886044848757029160000, 8423177234108842892400000⟩,
  ⟨16618604216976163093000, 649936721042400356030000, 926886044848758694490000⟩,
  ⟨23713682465168772241000, 3294543765845505123300000, 737136644534187868150000⟩,
  ⟨23713682465168772241000, 5968319589620306731000000, 3294543765845505123300000⟩,
  ⟨23713682465168772241000, 737136644534188145710000, 5968319589620308951400000⟩,
  ⟨23713682465168772241000, 5968319589620306731000000, 737136644534187868150000⟩,
  ⟨23713682465168772241000, 3294543765845504568200000, 5968319589620307841200000⟩,
  ⟨23713682465168772241000, 737136644534186757930000, 3294543765845507343700000⟩,
  ⟨20569006463248742239000, 2883788411304420429300000, 500649881468919338840000⟩,
  ⟨20569006463248742239000, 6615561707226660370700000, 2883788411304420984400000⟩,
  ⟨20569006463248742239000, 500649881468919755180000, 6615561707226660370700000⟩,
  ⟨20569006463248742239000, 6615561707226659260400000, 500649881468919338840000⟩,
  ⟨20569006463248742239000, 2883788411304420984400000, 6615561707226660370700000⟩,
  ⟨20569006463248742239000, 500649881468918089840000, 2883788411304423204800000⟩,
  ⟨26176712614468921475000, 3921724164051738625900000, 658963384748946778830000⟩,
  ⟨26176712614468921475000, 5419312451199315150400000, 3921724164051739181000000⟩,
  ⟨26176712614468921475000, 658963384748946223720000, 5419312451199317370900000⟩,
  ⟨26176712614468921475000, 5419312451199314040200000, 658963384748946778830000⟩,
  ⟨26176712614468921475000, 3921724164051737515600000, 5419312451199316260600000⟩,
  ⟨26176712614468921475000, 658963384748945946170000, 3921724164051740291200000⟩,
  ⟨651699642263251258890, 76222500155876176872000, 12341185277632714303000⟩,
  ⟨651699642263251258890, 9911436314566490768400000, 76222500155875760539000⟩,
  ⟨651699642263251258890, 12341185277635058348000, 9911436314566490768400000⟩,
  ⟨651699642263251258890, 9911436314566490768400000, 12341185277632714303000⟩,
  ⟨651699642263251258890, 76222500155876393713000, 9911436314566494099100000⟩,
  ⟨651699642263251258890, 12341185277629841167000, 76222500155879611625000⟩,
  ⟨38352472589543149840000, 4123573403136303050500000, 1752853193727394176500000⟩,
  ⟨38352472589543149840000, 4123573403136303050500000, 4123573403136303605600000⟩,
  ⟨38352472589543149840000, 1752853193727392788800000, 4123573403136304715800000⟩,
  ⟨26138521419691797439000, 1782079366279756826900000, 1056958273276098619900000⟩,
  ⟨26138521419691797439000, 7160962360444145247100000, 1782079366279757104400000⟩,
  ⟨26138521419691797439000, 1056958273276099036200000, 7160962360444146357400000⟩,
  ⟨26138521419691797439000, 7160962360444145247100000, 1056958273276098619900000⟩,
  ⟨26138521419691797439000, 1782079366279756826900000, 7160962360444146357400000⟩,
  ⟨26138521419691797439000, 1056958273276096815800000, 1782079366279759602400000⟩,
  ⟨33155687707742669684000, 3102489314599136127600000, 1238716703955509007600000⟩,
  ⟨33155687707742669684000, 5658793981445354726000000, 3102489314599136682700000⟩,
  ⟨33155687707742669684000, 1238716703955508591200000, 5658793981445356946500000⟩,
  ⟨33155687707742669684000, 5658793981445354726000000, 1238716703955509007600000⟩,
  ⟨33155687707742669684000, 3102489314599135572500000, 5658793981445356946500000⟩,
  ⟨33155687707742669684000, 1238716703955507758600000, 3102489314599137793000000⟩,
  ⟨34381478546980752398000, 4390483832458434987300000, 1219032335083129886500000⟩,
  ⟨34381478546980752398000, 4390483832458434987300000, 4390483832458436097600000⟩,
  ⟨34381478546980752398000, 1219032335083128915100000, 4390483832458437207800000⟩,
  ⟨3476173198585369439300, 829157021331251853360000, 28073976185661406874000⟩,
  ⟨3476173198585369439300, 9142769002483086548900000, 829157021331251992140000⟩,
  ⟨3476173198585369439300, 28073976185661875249000, 9142769002483088769400000⟩,
  ⟨3476173198585369439300, 9142769002483087659200000, 28073976185661406874000⟩,
  ⟨3476173198585369439300, 829157021331252686020000, 9142769002483088769400000⟩,
  ⟨3476173198585369439300, 28073976185659377247000, 829157021331255461580000⟩,
  ⟨34591862436962749101000, 3796386793469431197900000, 1106897783260212403400000⟩,
  ⟨34591862436962749101000, 5096715423270355982400000, 3796386793469432308100000⟩,
  ⟨34591862436962749101000, 1106897783260211709500000, 5096715423270358202900000⟩,
  ⟨34591862436962749101000, 5096715423270355982400000, 1106897783260212403400000⟩,
  ⟨34591862436962749101000, 3796386793469431197900000, 5096715423270358202900000⟩,
  ⟨34591862436962749101000, 1106897783260210876800000, 3796386793469433418300000⟩,
  ⟨40339988583191202162000, 2350523254582136956100000, 2350523254582138621400000⟩,
  ⟨40339988583191202162000, 5298953490835724977600000, 2350523254582137788700000⟩,
  ⟨40339988583191202162000, 2350523254582138066300000, 5298953490835726087800000⟩,
  ⟨5088534246774579963100, 1980682921145433539300000, 27564226137056554305000⟩,
  ⟨5088534246774579963100, 7991752852717509680900000, 1980682921145433539300000⟩,
  ⟨5088534246774579963100, 27564226137057334931000, 7991752852717511901300000⟩,
  ⟨5088534246774579963100, 7991752852717510791100000, 27564226137056554305000⟩,
  ⟨5088534246774579963100, 1980682921145433539300000, 7991752852717510791100000⟩,
  ⟨5088534246774579963100, 27564226137054836929000, 1980682921145436314900000⟩,
  ⟨22654956485322680013000, 1479479453220730322800000, 720516990960159003920000⟩,
  ⟨22654956485322680013000, 7800003555819109424300000, 1479479453220730322800000⟩,
  ⟨22654956485322680013000, 720516990960159420250000, 7800003555819112754900000⟩,
  ⟨22654956485322680013000, 7800003555819110534500000, 720516990960159003920000⟩,
  ⟨22654956485322680013000, 1479479453220731155500000, 7800003555819112754900000⟩,
  ⟨22654956485322680013000, 720516990960156644700000, 1479479453220733375900000⟩,
  ⟨11896402478192844628000, 2292027665534673297500000, 144286115706842923980000⟩,
  ⟨11896402478192844628000, 7563686218758484125500000, 2292027665534673575000000⟩,
  ⟨11896402478192844628000, 144286115706843132140000, 7563686218758485235700000⟩,
  ⟨11896402478192844628000, 7563686218758484125500000, 144286115706842923980000⟩,
  ⟨11896402478192844628000, 2292027665534674407700000, 7563686218758484125500000⟩,
  ⟨11896402478192844628000, 144286115706841466810000, 2292027665534676073000000⟩,
  ⟨6084395548527204164800, 3574738503443845028000000, 27425666974118688077000⟩,
  ⟨6084395548527204164800, 6397835829582035893600000, 3574738503443845583100000⟩,
  ⟨6084395548527204164800, 27425666974119078390000, 6397835829582038114100000⟩,
  ⟨6084395548527204164800, 6397835829582035893600000, 27425666974118688077000⟩,
  ⟨6084395548527204164800, 3574738503443844472900000, 6397835829582038114100000⟩,
  ⟨6084395548527204164800, 27425666974117135499000, 3574738503443847803500000⟩,
  ⟨15565136201891546265000, 1252496722294377251600000, 390243298422159254350000⟩,
  ⟨15565136201891546265000, 8357259979283462314500000, 1252496722294377529100000⟩,
  ⟨15565136201891546265000, 390243298422160433960000, 8357259979283464534900000⟩,
  ⟨15565136201891546265000, 8357259979283463424700000, 390243298422159254350000⟩,
  ⟨15565136201891546265000, 1252496722294378361800000, 8357259979283464534900000⟩,
  ⟨15565136201891546265000, 390243298422156686960000, 1252496722294380304700000⟩,
  ⟨3240926664065627450100, 209805646004062387730000, 74746634659333269571000⟩,
  ⟨3240926664065627450100, 9715447719336604004400000, 209805646004062353040000⟩,
  ⟨3240926664065627450100, 74746634659335065010000, 9715447719336605114600000⟩,
  ⟨3240926664065627450100, 9715447719336604004400000, 74746634659333269571000⟩,
  ⟨3240926664065627450100, 209805646004063151010000, 9715447719336605114600000⟩,
  ⟨3240926664065627450100, 74746634659330780243000, 209805646004066169430000⟩,
  ⟨41725823730272828746000, 2691316117440097355200000, 1755717786015192627400000⟩,
  ⟨41725823730272828746000, 5552966096544709184700000, 2691316117440097910300000⟩,
  ⟨41725823730272828746000, 1755717786015191794700000, 5552966096544712515400000⟩,
  ⟨41725823730272828746000, 5552966096544710294900000, 1755717786015192627400000⟩,
  ⟨41725823730272828746000, 2691316117440097910300000, 5552966096544711405200000⟩,
  ⟨41725823730272828746000, 1755717786015190962100000, 2691316117440099575700000⟩,
  ⟨30855303407257583283000, 1508217347798915253200000, 1508217347798917751200000⟩,
  ⟨30855303407257583283000, 6983565304402166162800000, 1508217347798915808400000⟩,
  ⟨30855303407257583283000, 1508217347798918583900000, 6983565304402167273100000⟩,
  ⟨44519014246259059134000, 3462198724218935597100000, 1712267588507529192400000⟩,
  ⟨44519014246259059134000, 4825533687273535488100000, 3462198724218936152200000⟩,
  ⟨44519014246259059134000, 1712267588507528637300000, 4825533687273537153400000⟩,
  ⟨44519014246259059134000, 4825533687273536043200000, 1712267588507529192400000⟩,
  ⟨44519014246259059134000, 3462198724218935042000000, 4825533687273536598300000⟩,
  ⟨44519014246259059134000, 1712267588507528082200000, 3462198724218937262400000⟩,
  ⟨23819069846941400698000, 4423877426580685168200000, 343061434540936835420000⟩,
  ⟨23819069846941400698000, 5233061138878378759600000, 4423877426580685723300000⟩,
  ⟨23819069846941400698000, 343061434540936627260000, 5233061138878379869900000⟩,
  ⟨23819069846941400698000, 5233061138878378759600000, 343061434540936835420000⟩,
  ⟨23819069846941400698000, 4423877426580685723300000, 5233061138878378759600000⟩,
  ⟨23819069846941400698000, 343061434540935794590000, 4423877426580687388700000⟩,
  ⟨6165717457187242954100, 2746338837226588447400000, 30296355118471073736000⟩,
  ⟨6165717457187242954100, 7223364807654941710500000, 2746338837226588447400000⟩,
  ⟨6165717457187242954100, 30296355118472062529000, 7223364807654941710500000⟩,
  ⟨6165717457187242954100, 7223364807654940600300000, 30296355118471073736000⟩,
  ⟨6165717457187242954100, 2746338837226588447400000, 7223364807654941710500000⟩,
  ⟨6165717457187242954100, 30296355118468731860000, 2746338837226591778100000⟩,
  ⟨26405181176830383460000, 2237012846551441058700000, 724869584556441376440000⟩,
  ⟨26405181176830383460000, 7038117568892118258700000, 2237012846551441336300000⟩,
  ⟨26405181176830383460000, 724869584556441237670000, 7038117568892120479200000⟩,
  ⟨26405181176830383460000, 7038117568892117148500000, 724869584556441376440000⟩,
  ⟨26405181176830383460000, 2237012846551441613800000, 7038117568892119368900000⟩,
  ⟨26405181176830383460000, 724869584556439572330000, 2237012846551443834300000⟩,
  ⟨36019790815254894289000, 2264729475116297741100000, 1338170233406639486600000⟩,
  ⟨36019790815254894289000, 6397100291477062494700000, 2264729475116297741100000⟩,
  ⟨36019790815254894289000, 1338170233406639764200000, 6397100291477064715200000⟩,
  ⟨36019790815254894289000, 6397100291477063605000000, 1338170233406639486600000⟩,
  ⟨36019790815254894289000, 2264729475116297186000000, 6397100291477064715200000⟩,
  ⟨36019790815254894289000, 1338170233406638098800000, 2264729475116299684000000⟩,
  ⟨12750232331756523093000, 1633619668293704307900000, 176742202382502745780000⟩,
  ⟨12750232331756523093000, 8189638129323792981000000, 1633619668293704307900000⟩,
  ⟨12750232331756523093000, 176742202382503266200000, 8189638129323794091300000⟩,
  ⟨12750232331756523093000, 8189638129323792981000000, 176742202382502745780000⟩,
  ⟨12750232331756523093000, 1633619668293704863000000, 8189638129323794091300000⟩,
  ⟨12750232331756523093000, 176742202382500213090000, 1633619668293707083400000⟩,
  ⟨20465605787013296975000, 1907912728543788571900000, 422082170395821076880000⟩,
  ⟨20465605787013296975000, 7670005101060390906300000, 1907912728543788571900000⟩,
  ⟨20465605787013296975000, 422082170395821631990000, 7670005101060392016500000⟩,
  ⟨20465605787013296975000, 7670005101060389796100000, 422082170395821076880000⟩,
  ⟨20465605787013296975000, 1907912728543789127000000, 7670005101060390906300000⟩,
  ⟨20465605787013296975000, 422082170395819411550000, 1907912728543791347500000⟩,
  ⟨22346958718063186268000, 3581658706314306828100000, 344163203969896150380000⟩,
  ⟨22346958718063186268000, 6074178089715797090900000, 3581658706314307383200000⟩,
  ⟨22346958718063186268000, 344163203969896080990000, 6074178089715798201100000⟩,
  ⟨22346958718063186268000, 6074178089715797090900000, 344163203969896150380000⟩,
  ⟨22346958718063186268000, 3581658706314306828100000, 6074178089715798201100000⟩,
  ⟨22346958718063186268000, 344163203969894970770000, 3581658706314309048600000⟩,
  ⟨10506112115176238515000, 993849892050521904750000, 174529902610205088500000⟩,
  ⟨10506112115176238515000, 8831620205339272278200000, 993849892050521904750000⟩,
  ⟨10506112115176238515000, 174529902610206510970000, 8831620205339273388400000⟩,
  ⟨10506112115176238515000, 8831620205339273388400000, 174529902610205088500000⟩,
  ⟨10506112115176238515000, 993849892050522876200000, 8831620205339273388400000⟩,
  ⟨10506112115176238515000, 174529902610202694580000, 993849892050525512980000⟩,
  ⟨4110445536571102334200, 4502328978916523838400000, 12278348447230759063000⟩,
  ⟨4110445536571102334200, 5485392672636245636800000, 4502328978916524948600000⟩,
  ⟨4110445536571102334200, 12278348447229969764000, 5485392672636247857200000⟩,
  ⟨4110445536571102334200, 5485392672636245636800000, 12278348447230759063000⟩,
  ⟨4110445536571102334200, 4502328978916524948600000, 5485392672636245636800000⟩,
  ⟨4110445536571102334200, 12278348447229969764000, 4502328978916526613900000⟩,
  ⟨33306168106237705843000, 4642737776346699818400000, 714524447306600085650000⟩,
  ⟨33306168106237705843000, 4642737776346700928600000, 4642737776346700373500000⟩,
  ⟨33306168106237705843000, 714524447306599252980000, 4642737776346702594000000⟩,
  ⟨51066728077645683753000, 3048602929866792710100000, 2362631900663086648200000⟩,
  ⟨51066728077645683753000, 4588765169470120919300000, 3048602929866793820300000⟩,
  ⟨51066728077645683753000, 2362631900663085537900000, 4588765169470122029500000⟩,
  ⟨51066728077645683753000, 4588765169470120919300000, 2362631900663086648200000⟩,
  ⟨51066728077645683753000, 3048602929866792710100000, 4588765169470121474400000⟩,
  ⟨51066728077645683753000, 2362631900663084982800000, 3048602929866794375400000⟩,
  ⟨15201106774150479652000, 3135836062706951477000000, 155229285287317442240000⟩,
  ⟨15201106774150479652000, 6708934652005731358300000, 3135836062706952032100000⟩,
  ⟨15201106774150479652000, 155229285287317719800000, 6708934652005732468500000⟩,
  ⟨15201106774150479652000, 6708934652005731358300000, 155229285287317442240000⟩,
  ⟨15201106774150479652000, 3135836062706952032100000, 6708934652005732468500000⟩,
  ⟨15201106774150479652000, 155229285287316332020000, 3135836062706954252600000⟩,
  ⟨5548050768085303593000, 1348062882666828943300000, 38480457708450575144000⟩,
  ⟨5548050768085303593000, 8613456659624719735600000, 1348062882666829220800000⟩,
  ⟨5548050768085303593000, 38480457708451321075000, 8613456659624721956100000⟩,
  ⟨5548050768085303593000, 8613456659624720845900000, 38480457708450575144000⟩,
  ⟨5548050768085303593000, 1348062882666830053500000, 8613456659624721956100000⟩,
  ⟨5548050768085303593000, 38480457708448545517000, 1348062882666832829100000⟩,
  ⟨40466125378445412519000, 1911613618773089218200000, 1911613618773091716200000⟩,
  ⟨40466125378445412519000, 6176772762453819343200000, 1911613618773090050900000⟩,
  ⟨40466125378445412519000, 1911613618773090883500000, 6176772762453820453400000⟩,
  ⟨13334505830017262355000, 658281924328198569940000, 380724693230130931120000⟩,
  ⟨13334505830017262355000, 8960993382441669874400000, 658281924328198569940000⟩,
  ⟨13334505830017262355000, 380724693230131694400000, 8960993382441672094900000⟩,
  ⟨13334505830017262355000, 8960993382441670984700000, 380724693230130931120000⟩,
  ⟨13334505830017262355000, 658281924328199541390000, 8960993382441672094900000⟩,
  ⟨13334505830017262355000, 380724693230129127010000, 658281924328201900610000⟩,
  ⟨7837118555754367561800, 293500490934269150920000, 293500490934272099950000⟩,
  ⟨7837118555754367561800, 9412999018131458228700000, 293500490934268908060000⟩,
  ⟨7837118555754367561800, 293500490934273106090000, 9412999018131460449200000⟩,
  ⟨55041380808568112631000, 3081452189910932615300000, 3081452189910933725500000⟩,
  ⟨55041380808568112631000, 3837095620178133659200000, 3081452189910933725500000⟩,
  ⟨55041380808568112631000, 3081452189910932615300000, 3837095620178135324500000⟩,
  ⟨6678043820325103678600, 531928439194577426520000, 121702541539402027400000⟩,
  ⟨6678043820325103678600, 9346369019266019817500000, 531928439194577148960000⟩,
  ⟨6678043820325103678600, 121702541539404074380000, 9346369019266020927700000⟩,
  ⟨6678043820325103678600, 9346369019266020927700000, 121702541539402027400000⟩,
  ⟨6678043820325103678600, 531928439194578883690000, 9346369019266020927700000⟩,
  ⟨6678043820325103678600, 121702541539399147760000, 531928439194580965350000⟩,
  ⟨27117744620662851025000, 1111782647883809149700000, 1111782647883811509000000⟩,
  ⟨27117744620662851025000, 7776434704232378925000000, 1111782647883809288500000⟩,
  ⟨27117744620662851025000, 1111782647883811647700000, 7776434704232381145400000⟩,
  ⟨1330889119467210839700, 406479626359585802240000, 8585590446839483315000⟩,
  ⟨1330889119467210839700, 9584934783193573837300000, 406479626359585247130000⟩,
  ⟨1330889119467210839700, 8585590446841262490800, 9584934783193576057800000⟩,
  ⟨1330889119467210839700, 9584934783193574947500000, 8585590446839483315000⟩,
  ⟨1330889119467210839700, 406479626359586565520000, 9584934783193576057800000⟩,
  ⟨1330889119467210839700, 8585590446836370570600, 406479626359589132910000⟩,
  ⟨14438434956607609089000, 4064475672122848659600000, 123358378103272329360000⟩,
  ⟨14438434956607609089000, 5812165949773878681500000, 4064475672122848659600000⟩,
  ⟨14438434956607609089000, 123358378103272658950000, 5812165949773880901900000⟩,
  ⟨14438434956607609089000, 5812165949773878681500000, 123358378103272329360000⟩,
  ⟨14438434956607609089000, 4064475672122847549300000, 5812165949773880901900000⟩,
  ⟨14438434956607609089000, 123358378103271271180000, 4064475672122850880000000⟩,
  ⟨52531730034085536915000, 3810023496034418699600000, 2379953007931162878300000⟩,
  ⟨52531730034085536915000, 3810023496034418144500000, 3810023496034419809900000⟩,
  ⟨52531730034085536915000, 2379953007931161490500000, 3810023496034420365000000⟩,
  ⟨14479578817342829596000, 4944809967477004075700000, 110380065045991449660000⟩,
  ⟨14479578817342829596000, 4944809967477005185900000, 4944809967477004630800000⟩,
  ⟨14479578817342829596000, 110380065045990460870000, 4944809967477006851200000⟩]

/-- `HardcodedQuadRule<kTria, 37>()`; /repo/lib/lf/quad/quad_rules_tria.cc:9849-10611. -/
def triaTab37 : List TabRow := [
  ⟨7569948859290074379800, 1023039321577603050200000, 1023039321577605409400000⟩,
  ⟨7569948859290074379800, 7953921356844790846500000, 1023039321577602772700000⟩,
  ⟨7569948859290074379800, 1023039321577606797200000, 7953921356844793066900000⟩,
  ⟨10495960486747364128000, 3160240964966399279700000, 338290906827213161410000⟩,
  ⟨10495960486747364128000, 6501468128206387975300000, 3160240964966399279700000⟩,
  ⟨10495960486747364128000, 338290906827212745080000, 6501468128206390195700000⟩,
  ⟨10495960486747364128000, 6501468128206387975300000, 338290906827213161410000⟩,
  ⟨10495960486747364128000, 3160240964966399834800000, 6501468128206389085500000⟩,
  ⟨10495960486747364128000, 338290906827211912410000, 3160240964966401500100000⟩,
  ⟨5523418345223071908300, 350202358754684098250000, 350202358754686943200000⟩,
  ⟨5523418345223071908300, 9299595282490629166700000, 350202358754683681920000⟩,
  ⟨5523418345223071908300, 350202358754688192200000, 9299595282490630276900000⟩,
  ⟨9613125860910386308000, 1053594119602819234600000, 331459895561884293480000⟩,
  ⟨9613125860910386308000, 8614945984835296055600000, 1053594119602818957000000⟩,
  ⟨9613125860910386308000, 331459895561886375150000, 8614945984835296055600000⟩,
  ⟨9613125860910386308000, 8614945984835296055600000, 331459895561884293480000⟩,
  ⟨9613125860910386308000, 1053594119602819234600000, 8614945984835299386300000⟩,
  ⟨9613125860910386308000, 331459895561881309760000, 1053594119602822148900000⟩,
  ⟨2402215050009382998900, 749810217841138243470000, 20334760761173287930000⟩,
  ⟨2402215050009382998900, 9229855021397688208400000, 749810217841138243470000⟩,
  ⟨2402215050009382998900, 20334760761174797139000, 9229855021397689318600000⟩,
  ⟨2402215050009382998900, 9229855021397688208400000, 20334760761173287930000⟩,
  ⟨2402215050009382998900, 749810217841138659800000, 9229855021397689318600000⟩,
  ⟨2402215050009382998900, 20334760761170772581000, 749810217841141712910000⟩,
  ⟨15162737300447451990000, 1194865933803551938400000, 555104031624588586950000⟩,
  ⟨15162737300447451990000, 8250030034571860237900000, 1194865933803551660800000⟩,
  ⟨15162737300447451990000, 555104031624589766560000, 8250030034571860237900000⟩,
  ⟨15162737300447451990000, 8250030034571859127700000, 555104031624588586950000⟩,
  ⟨15162737300447451990000, 1194865933803552771100000, 8250030034571860237900000⟩,
  ⟨15162737300447451990000, 555104031624585950170000, 1194865933803554852700000⟩,
  ⟨36594531646208477808000, 3192351650459891443400000, 2380608471170248541200000⟩,
  ⟨36594531646208477808000, 4427039878369860570500000, 3192351650459892553600000⟩,
  ⟨36594531646208477808000, 2380608471170247431000000, 4427039878369861680700000⟩,
  ⟨36594531646208477808000, 4427039878369860570500000, 2380608471170248541200000⟩,
  ⟨36594531646208477808000, 3192351650459890888300000, 4427039878369861680700000⟩,
  ⟨36594531646208477808000, 2380608471170247153500000, 3192351650459893108700000⟩,
  ⟨26941594214904907370000, 3917882577236700969400000, 752705489375098402150000⟩,
  ⟨26941594214904907370000, 5329411933388200628400000, 3917882577236701524500000⟩,
  ⟨26941594214904907370000, 752705489375098402150000, 5329411933388201738600000⟩,
  ⟨26941594214904907370000, 5329411933388200628400000, 752705489375098402150000⟩,
  ⟨26941594214904907370000, 3917882577236700969400000, 5329411933388201738600000⟩,
  ⟨26941594214904907370000, 752705489375097569480000, 3917882577236703745000000⟩,
  ⟨37925461781852616225000, 2592434904565495412700000, 2592434904565497078000000⟩,
  ⟨37925461781852616225000, 4815130190869006954200000, 2592434904565496522900000⟩,
  ⟨37925461781852616225000, 2592434904565496522900000, 4815130190869009174600000⟩,
  ⟨22846079594907404628000, 3175434072141982699800000, 536208316291131165120000⟩,
  ⟨22846079594907404628000, 6288357611566885996300000, 3175434072141983254900000⟩,
  ⟨22846079594907404628000, 536208316291131859010000, 6288357611566887106500000⟩,
  ⟨22846079594907404628000, 6288357611566885996300000, 536208316291131165120000⟩,
  ⟨22846079594907404628000, 3175434072141983254900000, 6288357611566887106500000⟩,
  ⟨22846079594907404628000, 536208316291129916120000, 3175434072141985475400000⟩,
  ⟨28601799532292377509000, 3267645245927317532200000, 912947670950428336050000⟩,
  ⟨28601799532292377509000, 5819407083122254409300000, 3267645245927318087300000⟩,
  ⟨28601799532292377509000, 912947670950428058490000, 5819407083122256629800000⟩,
  ⟨28601799532292377509000, 5819407083122254409300000, 912947670950428336050000⟩,
  ⟨28601799532292377509000, 3267645245927318087300000, 5819407083122255519600000⟩,
  ⟨28601799532292377509000, 912947670950426948270000, 3267645245927319752600000⟩,
  ⟨33560024245428343379000, 3187496668271801447700000, 1351157490702846741800000⟩,
  ⟨33560024245428343379000, 5461345841025351255400000, 3187496668271802002800000⟩,
  ⟨33560024245428343379000, 1351157490702846741800000, 5461345841025353475800000⟩,
  ⟨33560024245428343379000, 5461345841025351255400000, 1351157490702846741800000⟩,
  ⟨33560024245428343379000, 3187496668271802002800000, 5461345841025353475800000⟩,
  ⟨33560024245428343379000, 1351157490702845631600000, 3187496668271803113000000⟩,
  ⟨11585387546565735321000, 674578790813868262030000, 407701237566786764410000⟩,
  ⟨11585387546565735321000, 8917719971619344487800000, 674578790813868400810000⟩,
  ⟨11585387546565735321000, 407701237566787666470000, 8917719971619345598100000⟩,
  ⟨11585387546565735321000, 8917719971619345598100000, 407701237566786764410000⟩,
  ⟨11585387546565735321000, 674578790813869511030000, 8917719971619345598100000⟩,
  ⟨11585387546565735321000, 407701237566784266410000, 674578790813871315150000⟩,
  ⟨1543346309852661830900, 183794409210811804380000, 29902778765639177576000⟩,
  ⟨1543346309852661830900, 9786302812023548458600000, 183794409210811492130000⟩,
  ⟨1543346309852661830900, 29902778765640292136000, 9786302812023550679000000⟩,
  ⟨1543346309852661830900, 9786302812023549568800000, 29902778765639177576000⟩,
  ⟨1543346309852661830900, 183794409210812359490000, 9786302812023550679000000⟩,
  ⟨1543346309852661830900, 29902778765637134939000, 183794409210815343210000⟩,
  ⟨6023513847205298407700, 476569358622159489070000, 172509604538075254910000⟩,
  ⟨6023513847205298407700, 9350921036839764388700000, 476569358622159627850000⟩,
  ⟨6023513847205298407700, 172509604538076954940000, 9350921036839765498900000⟩,
  ⟨6023513847205298407700, 9350921036839764388700000, 172509604538075254910000⟩,
  ⟨6023513847205298407700, 476569358622160876850000, 9350921036839765498900000⟩,
  ⟨6023513847205298407700, 172509604538072895690000, 476569358622163444240000⟩,
  ⟨40818731260717933812000, 3357227870380100620600000, 1811164091955319854800000⟩,
  ⟨40818731260717933812000, 4831608037664579802200000, 3357227870380101175700000⟩,
  ⟨40818731260717933812000, 1811164091955319299700000, 4831608037664581467600000⟩,
  ⟨40818731260717933812000, 4831608037664579802200000, 1811164091955319854800000⟩,
  ⟨40818731260717933812000, 3357227870380100620600000, 4831608037664581467600000⟩,
  ⟨40818731260717933812000, 1811164091955318189400000, 3357227870380102285900000⟩,
  ⟨26250300771643881453000, 1394412358722926792400000, 1394412358722929568000000⟩,
  ⟨26250300771643881453000, 7211175282554143084500000, 1394412358722927070000000⟩,
  ⟨26250300771643881453000, 1394412358722929568000000, 7211175282554145304900000⟩,
  ⟨29404173396389136387000, 4611684588908100401700000, 776630822183799751630000⟩,
  ⟨29404173396389136387000, 4611684588908100401700000, 4611684588908100956800000⟩,
  ⟨29404173396389136387000, 776630822183798918970000, 4611684588908102067100000⟩,
  ⟨21822620140949538538000, 1356716079161176258200000, 901302718482900888650000⟩,
  ⟨21822620140949538538000, 7741981202355922020400000, 1356716079161176813400000⟩,
  ⟨21822620140949538538000, 901302718482901443760000, 7741981202355923130700000⟩,
  ⟨21822620140949538538000, 7741981202355922020400000, 901302718482900888650000⟩,
  ⟨21822620140949538538000, 1356716079161177646000000, 7741981202355923130700000⟩,
  ⟨21822620140949538538000, 901302718482898529430000, 1356716079161179033800000⟩,
  ⟨2748982753236591447200, 417693614359697928950000, 40170970872312533259000⟩,
  ⟨2748982753236591447200, 9542135414767989320900000, 417693614359697373840000⟩,
  ⟨2748982753236591447200, 40170970872314692990000, 9542135414767990431200000⟩,
  ⟨2748982753236591447200, 9542135414767989320900000, 40170970872312533259000⟩,
  ⟨2748982753236591447200, 417693614359699316730000, 9542135414767990431200000⟩,
  ⟨2748982753236591447200, 40170970872309592903000, 417693614359701190230000⟩,
  ⟨43222782870426653887000, 3791537179550378278100000, 2416925640899243998800000⟩,
  ⟨43222782870426653887000, 3791537179550378278100000, 3791537179550379388400000⟩,
  ⟨43222782870426653887000, 2416925640899242888600000, 3791537179550379388400000⟩,
  ⟨26232190793460861099000, 1912637374380762311800000, 809653202292540813410000⟩,
  ⟨26232190793460861099000, 7277709423326695903400000, 1912637374380762589300000⟩,
  ⟨26232190793460861099000, 809653202292541784860000, 7277709423326698123800000⟩,
  ⟨26232190793460861099000, 7277709423326697013600000, 809653202292540813410000⟩,
  ⟨26232190793460861099000, 1912637374380762311800000, 7277709423326699234000000⟩,
  ⟨26232190793460861099000, 809653202292538870520000, 1912637374380764809800000⟩,
  ⟨16292447281956456712000, 4489203299566428273500000, 168814585101307729210000⟩,
  ⟨16292447281956456712000, 5341982115332263303400000, 4489203299566428828600000⟩,
  ⟨16292447281956456712000, 168814585101307312880000, 5341982115332265523800000⟩,
  ⟨16292447281956456712000, 5341982115332264413600000, 168814585101307729210000⟩,
  ⟨16292447281956456712000, 4489203299566428828600000, 5341982115332264413600000⟩,
  ⟨16292447281956456712000, 168814585101306757760000, 4489203299566431049100000⟩,
  ⟨23906174941901959727000, 3970833791349884789300000, 414766785336368876140000⟩,
  ⟨23906174941901959727000, 5614399423313745085600000, 3970833791349885899500000⟩,
  ⟨23906174941901959727000, 414766785336368459800000, 5614399423313748416200000⟩,
  ⟨23906174941901959727000, 5614399423313746195800000, 414766785336368876140000⟩,
  ⟨23906174941901959727000, 3970833791349885344400000, 5614399423313746195800000⟩,
  ⟨23906174941901959727000, 414766785336368182250000, 3970833791349887564900000⟩,
  ⟨8043859514434298103200, 862263440628871780100000, 137345861622121794690000⟩,
  ⟨8043859514434298103200, 9000390697749005575200000, 862263440628871641320000⟩,
  ⟨8043859514434298103200, 137345861622123477370000, 9000390697749007795600000⟩,
  ⟨8043859514434298103200, 9000390697749006685400000, 137345861622121794690000⟩,
  ⟨8043859514434298103200, 862263440628872057660000, 9000390697749007795600000⟩,
  ⟨8043859514434298103200, 137345861622119660980000, 862263440628875249550000⟩,
  ⟨4387936260754072680800, 173411753639024328320000, 173411753639027069180000⟩,
  ⟨4387936260754072680800, 9653176492721948776000000, 173411753639023877290000⟩,
  ⟨4387936260754072680800, 173411753639028942690000, 9653176492721948776000000⟩,
  ⟨14912832526496650094000, 2814879599422819844700000, 179186043302918159010000⟩,
  ⟨14912832526496650094000, 7005934357274262724900000, 2814879599422819844700000⟩,
  ⟨14912832526496650094000, 179186043302918540650000, 7005934357274263835100000⟩,
  ⟨14912832526496650094000, 7005934357274261614600000, 179186043302918159010000⟩,
  ⟨14912832526496650094000, 2814879599422819289600000, 7005934357274263835100000⟩,
  ⟨14912832526496650094000, 179186043302916320210000, 2814879599422822620300000⟩,
  ⟨30469744217764302245000, 1923768347442592896400000, 1284713900567929223400000⟩,
  ⟨30469744217764302245000, 6791517751989477602600000, 1923768347442593451600000⟩,
  ⟨30469744217764302245000, 1284713900567929223400000, 6791517751989479823000000⟩,
  ⟨30469744217764302245000, 6791517751989477602600000, 1284713900567929223400000⟩,
  ⟨30469744217764302245000, 1923768347442592618900000, 6791517751989479823000000⟩,
  ⟨30469744217764302245000, 1284713900567927280500000, 1923768347442595394400000⟩,
  ⟨35436703730283209725000, 2517942475174331229400000, 1373211597315956156200000⟩,
  ⟨35436703730283209725000, 6108845927509711781800000, 2517942475174331784500000⟩,
  ⟨35436703730283209725000, 1373211597315955878600000, 6108845927509714002200000⟩,
  ⟨35436703730283209725000, 6108845927509712892000000, 1373211597315956156200000⟩,
  ⟨35436703730283209725000, 2517942475174332339600000, 6108845927509712892000000⟩,
  ⟨35436703730283209725000, 1373211597315954768400000, 2517942475174334005000000⟩,
  ⟨17931168013748419003000, 779889301806426238350000, 779889301806429013910000⟩,
  ⟨17931168013748419003000, 8440221396387144192600000, 779889301806426099570000⟩,
  ⟨17931168013748419003000, 779889301806430124130000, 8440221396387146413100000⟩,
  ⟨15748763140405943207000, 3650347949363279553800000, 174418264943838295660000⟩,
  ⟨15748763140405943207000, 6175233785692881838300000, 3650347949363280664100000⟩,
  ⟨15748763140405943207000, 174418264943838052790000, 6175233785692882948500000⟩,
  ⟨15748763140405943207000, 6175233785692881838300000, 174418264943838295660000⟩,
  ⟨15748763140405943207000, 3650347949363280108900000, 6175233785692882948500000⟩,
  ⟨15748763140405943207000, 174418264943837220130000, 3650347949363282329400000⟩,
  ⟨24996214142379087793000, 4792449355569203262000000, 415101288861593406550000⟩,
  ⟨24996214142379087793000, 4792449355569203817100000, 4792449355569203817100000⟩,
  ⟨24996214142379087793000, 415101288861592643280000, 4792449355569205482500000⟩,
  ⟨45394212527698233825000, 4120614054796895020500000, 1758771890406210514100000⟩,
  ⟨45394212527698233825000, 4120614054796895020500000, 4120614054796896130700000⟩,
  ⟨45394212527698233825000, 1758771890406209681400000, 4120614054796896685900000⟩,
  ⟨31259349765604786675000, 2571566355502534762000000, 861981702781003389370000⟩,
  ⟨31259349765604786675000, 6566451941716462403800000, 2571566355502535317100000⟩,
  ⟨31259349765604786675000, 861981702781003389370000, 6566451941716463514000000⟩,
  ⟨31259349765604786675000, 6566451941716462403800000, 861981702781003389370000⟩,
  ⟨31259349765604786675000, 2571566355502535317100000, 6566451941716463514000000⟩,
  ⟨31259349765604786675000, 861981702781001446480000, 2571566355502537537500000⟩,
  ⟨7078390545972555736300, 4984105744139569749200000, 31788511720860996093000⟩,
  ⟨7078390545972555736300, 4984105744139569749200000, 4984105744139570304300000⟩,
  ⟨7078390545972555736300, 31788511720859946585000, 4984105744139571969600000⟩,
  ⟨51033183245867948588000, 3091259486853504823100000, 3091259486853506488500000⟩,
  ⟨51033183245867948588000, 3817481026292989243500000, 3091259486853506488500000⟩,
  ⟨51033183245867948588000, 3091259486853504823100000, 3817481026292990353700000⟩,
  ⟨4746526612736143117800, 1241816119341110219400000, 34112678008346984139000⟩,
  ⟨4746526612736143117800, 8724071202650542922200000, 1241816119341110497000000⟩,
  ⟨4746526612736143117800, 34112678008348384928000, 8724071202650542922200000⟩,
  ⟨4746526612736143117800, 8724071202650542922200000, 34112678008346984139000⟩,
  ⟨4746526612736143117800, 1241816119341111468400000, 8724071202650542922200000⟩,
  ⟨4746526612736143117800, 34112678008344499148000, 1241816119341113688900000⟩,
  ⟨20156260421464013491000, 1716507278093691579700000, 445555167117895126180000⟩,
  ⟨20156260421464013491000, 7837937554788413363500000, 1716507278093691579700000⟩,
  ⟨20156260421464013491000, 445555167117895889460000, 7837937554788414473700000⟩,
  ⟨20156260421464013491000, 7837937554788413363500000, 445555167117895126180000⟩,
  ⟨20156260421464013491000, 1716507278093691857300000, 7837937554788414473700000⟩,
  ⟨20156260421464013491000, 445555167117892975130000, 1716507278093694355300000⟩,
  ⟨40861087741151979127000, 3977231091982855737400000, 1220975488845626871800000⟩,
  ⟨40861087741151979127000, 4801793419171518362300000, 3977231091982856292500000⟩,
  ⟨40861087741151979127000, 1220975488845626733000000, 4801793419171518917400000⟩,
  ⟨40861087741151979127000, 4801793419171517807200000, 1220975488845626871800000⟩,
  ⟨40861087741151979127000, 3977231091982855737400000, 4801793419171518362300000⟩,
  ⟨40861087741151979127000, 1220975488845626177900000, 3977231091982857402700000⟩,
  ⟨866476678904295794000, 36715668219831150594000, 36715668219834260086000⟩,
  ⟨866476678904295794000, 9926568663560334515600000, 36715668219831055184000⟩,
  ⟨866476678904295794000, 36715668219835517760000, 9926568663560335625800000⟩,
  ⟨44793295143609173498000, 2578966456698564835300000, 1957103712364281489200000⟩,
  ⟨44793295143609173498000, 5463929830937153120400000, 2578966456698565390400000⟩,
  ⟨44793295143609173498000, 1957103712364280934100000, 5463929830937155340800000⟩,
  ⟨44793295143609173498000, 5463929830937154230600000, 1957103712364281489200000⟩,
  ⟨44793295143609173498000, 2578966456698564835300000, 5463929830937155340800000⟩,
  ⟨44793295143609173498000, 1957103712364279823900000, 2578966456698567055700000⟩,
  ⟨12310493707461606702000, 1441500744811936018900000, 183113919798339880310000⟩,
  ⟨12310493707461606702000, 8375385335389723406900000, 1441500744811936296500000⟩,
  ⟨12310493707461606702000, 183113919798341129310000, 8375385335389724517100000⟩,
  ⟨12310493707461606702000, 8375385335389724517100000, 183113919798339880310000⟩,
  ⟨12310493707461606702000, 1441500744811936574100000, 8375385335389724517100000⟩,
  ⟨12310493707461606702000, 183113919798337659860000, 1441500744811939072100000⟩,
  ⟨7106464606609639092500, 4122595610017910083800000, 32622580352038212798000⟩,
  ⟨7106464606609639092500, 5844781809630050784000000, 4122595610017911194100000⟩,
  ⟨7106464606609639092500, 32622580352038577090000, 5844781809630053004400000⟩,
  ⟨7106464606609639092500, 5844781809630051894200000, 32622580352038212798000⟩,
  ⟨7106464606609639092500, 4122595610017911194100000, 5844781809630051894200000⟩,
  ⟨7106464606609639092500, 32622580352036911755000, 4122595610017912859400000⟩,
  ⟨6525782479593402471800, 2524284647914363244300000, 34754415073157121294000⟩,
  ⟨6525782479593402471800, 7440960937012479625700000, 2524284647914363799400000⟩,
  ⟨6525782479593402471800, 34754415073157685079000, 7440960937012480735900000⟩,
  ⟨6525782479593402471800, 7440960937012479625700000, 34754415073157121294000⟩,
  ⟨6525782479593402471800, 2524284647914363799400000, 7440960937012480735900000⟩,
  ⟨6525782479593402471800, 34754415073155464633000, 2524284647914366575000000⟩,
  ⟨7229547638943634993100, 3293669274857745077300000, 35387900825818319889000⟩,
  ⟨7229547638943634993100, 6670942824316437036500000, 3293669274857745632400000⟩,
  ⟨7229547638943634993100, 35387900825818996431000, 6670942824316438146700000⟩,
  ⟨7229547638943634993100, 6670942824316437036500000, 35387900825818319889000⟩,
  ⟨7229547638943634993100, 3293669274857745632400000, 6670942824316437036500000⟩,
  ⟨7229547638943634993100, 35387900825817331096000, 3293669274857747852900000⟩,
  ⟨14672975290397597022000, 2095814817005154095900000, 188449390557523001330000⟩,
  ⟨14672975290397597022000, 7715735792437322659900000, 2095814817005154373500000⟩,
  ⟨14672975290397597022000, 188449390557522411530000, 7715735792437325990500000⟩,
  ⟨14672975290397597022000, 7715735792437322659900000, 188449390557523001330000⟩,
  ⟨14672975290397597022000, 2095814817005154928600000, 7715735792437323770100000⟩,
  ⟨14672975290397597022000, 188449390557521440080000, 2095814817005156871500000⟩,
  ⟨5982295026349153865500, 1836401694462322098400000, 36381021086963364827000⟩,
  ⟨5982295026349153865500, 8127217284450714007700000, 1836401694462322098400000⟩,
  ⟨5982295026349153865500, 36381021086964726585000, 8127217284450715117900000⟩,
  ⟨5982295026349153865500, 8127217284450714007700000, 36381021086963364827000⟩,
  ⟨5982295026349153865500, 1836401694462323486200000, 8127217284450715117900000⟩,
  ⟨5982295026349153865500, 36381021086961534694000, 1836401694462324873900000⟩,
  ⟨24367522099614648094000, 2416962324693375241400000, 457532869613174186800000⟩,
  ⟨24367522099614648094000, 7125504805693451126900000, 2416962324693374963800000⟩,
  ⟨24367522099614648094000, 457532869613174741910000, 7125504805693452237100000⟩,
  ⟨24367522099614648094000, 7125504805693450016700000, 457532869613174186800000⟩,
  ⟨24367522099614648094000, 2416962324693375796500000, 7125504805693452237100000⟩,
  ⟨24367522099614648094000, 457532869613172521460000, 2416962324693378017000000⟩,
  ⟨41453066285268595423000, 1893642612001961711400000, 1893642612001963654300000⟩,
  ⟨41453066285268595423000, 6212714775996074356700000, 1893642612001961989000000⟩,
  ⟨41453066285268595423000, 1893642612001962821600000, 6212714775996076577200000⟩]

end Verif
