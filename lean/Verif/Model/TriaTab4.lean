import Verif.Model.TriaTabBase

/-! Generated by tools/quad_tables.py from /repo/lib/lf/quad/quad_rules_tria.cc. -/

namespace Verif

/-- `HardcodedQuadRule<kTria, 41>()`; /repo/lib/lf/quad/quad_rules_tria.cc:13177-14110. -/
def triaTab41 : List TabRow := [
  ⟨261046615627579913900, 18100550930815317158000, 18100550930818285703000⟩,
  ⟨261046615627579913900, 9963798898138365167700000, 18100550930815080802000⟩,
  ⟨261046615627579913900, 18100550930819081508000, 9963798898138368498300000⟩,
  ⟨32216348354413533797000, 3146077513838777539600000, 3146077513838779204900000⟩,
  ⟨32216348354413533797000, 3707844972322442700400000, 3146077513838779204900000⟩,
  ⟨32216348354413533797000, 3146077513838778094700000, 3707844972322443810600000⟩,
  ⟨28231018862523086892000, 3718324578394357482500000, 2563350843211284479900000⟩,
  ⟨28231018862523086892000, 3718324578394358592700000, 3718324578394359147800000⟩,
  ⟨28231018862523086892000, 2563350843211282814600000, 3718324578394359147800000⟩,
  ⟨4733169982264500601600, 9338478958692606468600000, 267728022087155327620000⟩,
  ⟨4733169982264500601600, 393793019220239903790000, 9338478958692606468600000⟩,
  ⟨4733169982264500601600, 267728022087152760230000, 393793019220241638510000⟩,
  ⟨4733169982264500601600, 393793019220238516010000, 267728022087155327620000⟩,
  ⟨4733169982264500601600, 9338478958692605358400000, 393793019220238446620000⟩,
  ⟨4733169982264500601600, 267728022087156958260000, 9338478958692606468600000⟩,
  ⟨5389191646935420155000, 708749727266859141930000, 214673861123130318980000⟩,
  ⟨5389191646935420155000, 9076576411610010053400000, 708749727266858864370000⟩,
  ⟨5389191646935420155000, 214673861123131359820000, 9076576411610012273800000⟩,
  ⟨5389191646935420155000, 9076576411610010053400000, 214673861123130318980000⟩,
  ⟨5389191646935420155000, 708749727266858586820000, 9076576411610013384000000⟩,
  ⟨5389191646935420155000, 214673861123127820980000, 708749727266862333820000⟩,
  ⟨2767757031523198903000, 227676589099523561670000, 119851112427548141950000⟩,
  ⟨2767757031523198903000, 9652472298472927203500000, 227676589099523492280000⟩,
  ⟨2767757031523198903000, 119851112427549200130000, 9652472298472929424000000⟩,
  ⟨2767757031523198903000, 9652472298472928313700000, 119851112427548141950000⟩,
  ⟨2767757031523198903000, 227676589099524706580000, 9652472298472929424000000⟩,
  ⟨2767757031523198903000, 119851112427545106190000, 227676589099527343360000⟩,
  ⟨18723604576399853656000, 2127026585190979479600000, 964112026242689990060000⟩,
  ⟨18723604576399853656000, 6908861388566329697600000, 2127026585190979757200000⟩,
  ⟨18723604576399853656000, 964112026242690545170000, 6908861388566331918100000⟩,
  ⟨18723604576399853656000, 6908861388566330807800000, 964112026242689990060000⟩,
  ⟨18723604576399853656000, 2127026585190979202100000, 6908861388566333028300000⟩,
  ⟨18723604576399853656000, 964112026242687908400000, 2127026585190981700100000⟩,
  ⟨20368696048111800505000, 1970799949415201757200000, 1279782228464327875600000⟩,
  ⟨20368696048111800505000, 6749417822120469256900000, 1970799949415202312300000⟩,
  ⟨20368696048111800505000, 1279782228464327875600000, 6749417822120471477400000⟩,
  ⟨20368696048111800505000, 6749417822120470367200000, 1279782228464327875600000⟩,
  ⟨20368696048111800505000, 1970799949415202867400000, 6749417822120471477400000⟩,
  ⟨20368696048111800505000, 1279782228464326210300000, 1970799949415204255200000⟩,
  ⟨14875534123711879435000, 4818489601758343954300000, 363020796483312577220000⟩,
  ⟨14875534123711879435000, 4818489601758343399100000, 4818489601758344509400000⟩,
  ⟨14875534123711879435000, 363020796483312091500000, 4818489601758345619600000⟩,
  ⟨8943772853323141104300, 639130414360007115260000, 423991066111561523690000⟩,
  ⟨8943772853323141104300, 8936878519528430597800000, 639130414360006560150000⟩,
  ⟨8943772853323141104300, 423991066111562564520000, 8936878519528433928400000⟩,
  ⟨8943772853323141104300, 8936878519528431708000000, 423991066111561523690000⟩,
  ⟨8943772853323141104300, 639130414360006837700000, 8936878519528433928400000⟩,
  ⟨8943772853323141104300, 423991066111559511410000, 639130414360010168370000⟩,
  ⟨5157123690717351806300, 916254632757576847890000, 116869974011746882710000⟩,
  ⟨5157123690717351806300, 8966875393230676616300000, 916254632757576847890000⟩,
  ⟨5157123690717351806300, 116869974011748478660000, 8966875393230676616300000⟩,
  ⟨5157123690717351806300, 8966875393230676616300000, 116869974011746882710000⟩,
  ⟨5157123690717351806300, 916254632757577680560000, 8966875393230676616300000⟩,
  ⟨5157123690717351806300, 116869974011744801050000, 916254632757580039780000⟩,
  ⟨12661036341635330781000, 889175403557379839810000, 632415329385831864740000⟩,
  ⟨12661036341635330781000, 8478409267056787879100000, 889175403557379978590000⟩,
  ⟨12661036341635330781000, 632415329385832558630000, 8478409267056790099600000⟩,
  ⟨12661036341635330781000, 8478409267056787879100000, 632415329385831864740000⟩,
  ⟨12661036341635330781000, 889175403557380672480000, 8478409267056790099600000⟩,
  ⟨12661036341635330781000, 632415329385828950400000, 889175403557383309260000⟩,
  ⟨11262392789623187558000, 4592305589036990154400000, 148409448407795345470000⟩,
  ⟨11262392789623187558000, 5259284962555215159300000, 4592305589036990709500000⟩,
  ⟨11262392789623187558000, 148409448407794686280000, 5259284962555217379800000⟩,
  ⟨11262392789623187558000, 5259284962555214049100000, 148409448407795345470000⟩,
  ⟨11262392789623187558000, 4592305589036990154400000, 5259284962555215159300000⟩,
  ⟨11262392789623187558000, 148409448407794686280000, 4592305589036992374800000⟩,
  ⟨1409187542329703177500, 338843822348438572510000, 18400396156130721485000⟩,
  ⟨1409187542329703177500, 9642755781495430111900000, 338843822348438850070000⟩,
  ⟨1409187542329703177500, 18400396156132980963000, 9642755781495430111900000⟩,
  ⟨1409187542329703177500, 9642755781495431222100000, 18400396156130721485000⟩,
  ⟨1409187542329703177500, 338843822348439127620000, 9642755781495433442500000⟩,
  ⟨1409187542329703177500, 18400396156127638014000, 338843822348442041960000⟩,
  ⟨30546865348241108128000, 3200752104066153513900000, 2580571137398716685700000⟩,
  ⟨30546865348241108128000, 4218676758535129245300000, 3200752104066155179200000⟩,
  ⟨30546865348241108128000, 2580571137398716130600000, 4218676758535130910700000⟩,
  ⟨30546865348241108128000, 4218676758535129245300000, 2580571137398716685700000⟩,
  ⟨30546865348241108128000, 3200752104066154069000000, 4218676758535130355600000⟩,
  ⟨30546865348241108128000, 2580571137398715020300000, 3200752104066155734300000⟩,
  ⟨21224778885555982411000, 1422819983084207262600000, 1422819983084209760600000⟩,
  ⟨21224778885555982411000, 7154360033831582699200000, 1422819983084207817700000⟩,
  ⟨21224778885555982411000, 1422819983084209760600000, 7154360033831584919600000⟩,
  ⟨16544856076511783166000, 4220684925318889391100000, 362192254340186342580000⟩,
  ⟨16544856076511783166000, 5417122820340924960200000, 4220684925318889946200000⟩,
  ⟨16544856076511783166000, 362192254340186203800000, 5417122820340926070400000⟩,
  ⟨16544856076511783166000, 5417122820340924960200000, 362192254340186342580000⟩,
  ⟨16544856076511783166000, 4220684925318889391100000, 5417122820340924960200000⟩,
  ⟨16544856076511783166000, 362192254340185648690000, 4220684925318891611600000⟩,
  ⟨3751701870502994313200, 478764410729283981790000, 105439660443664238320000⟩,
  ⟨3751701870502994313200, 9415795928827050964600000, 478764410729283496070000⟩,
  ⟨3751701870502994313200, 105439660443665816910000, 9415795928827053185000000⟩,
  ⟨3751701870502994313200, 9415795928827050964600000, 105439660443664238320000⟩,
  ⟨3751701870502994313200, 478764410729285438960000, 9415795928827053185000000⟩,
  ⟨3751701870502994313200, 105439660443661688270000, 478764410729287034910000⟩,
  ⟨25181258544881945753000, 1746336148663415743800000, 1746336148663418241800000⟩,
  ⟨25181258544881945753000, 6507327702673165736900000, 1746336148663416576500000⟩,
  ⟨25181258544881945753000, 1746336148663419352000000, 6507327702673165736900000⟩,
  ⟨30050502385811218679000, 4251980784151399017600000, 1496038431697201409600000⟩,
  ⟨30050502385811218679000, 4251980784151399017600000, 4251980784151400683000000⟩,
  ⟨30050502385811218679000, 1496038431697200021800000, 4251980784151401793200000⟩,
  ⟨31118296166047893468000, 3617990227060762231700000, 1510268874995655541400000⟩,
  ⟨31118296166047893468000, 4871740897943581671800000, 3617990227060763341900000⟩,
  ⟨31118296166047893468000, 1510268874995654986300000, 4871740897943583892300000⟩,
  ⟨31118296166047893468000, 4871740897943582782000000, 1510268874995655541400000⟩,
  ⟨31118296166047893468000, 3617990227060762786800000, 4871740897943582782000000⟩,
  ⟨31118296166047893468000, 1510268874995654708700000, 3617990227060763897000000⟩,
  ⟨30386144984886837364000, 2099773723379177448000000, 2099773723379179113400000⟩,
  ⟨30386144984886837364000, 5800452553241642883500000, 2099773723379178280700000⟩,
  ⟨30386144984886837364000, 2099773723379179113400000, 5800452553241643993700000⟩,
  ⟨2452104355071648821700, 684569430922209731790000, 24820609017323636003000⟩,
  ⟨2452104355071648821700, 9290609960060465244400000, 684569430922209454240000⟩,
  ⟨2452104355071648821700, 24820609017324746226000, 9290609960060468575100000⟩,
  ⟨2452104355071648821700, 9290609960060466354600000, 24820609017323636003000⟩,
  ⟨2452104355071648821700, 684569430922210009350000, 9290609960060468575100000⟩,
  ⟨2452104355071648821700, 24820609017321484946000, 684569430922212646130000⟩,
  ⟨29453221328521188467000, 2362884725964560228600000, 1549577670219628722200000⟩,
  ⟨29453221328521188467000, 6087537603815811326800000, 2362884725964560783700000⟩,
  ⟨29453221328521188467000, 1549577670219628444700000, 6087537603815813547200000⟩,
  ⟨29453221328521188467000, 6087537603815811326800000, 1549577670219628722200000⟩,
  ⟨29453221328521188467000, 2362884725964560228600000, 6087537603815813547200000⟩,
  ⟨29453221328521188467000, 1549577670219626501800000, 2362884725964561893900000⟩,
  ⟨31190600595570041817000, 2978954189850495648500000, 1519615536650988640900000⟩,
  ⟨31190600595570041817000, 5501430273498515433100000, 2978954189850496758800000⟩,
  ⟨31190600595570041817000, 1519615536650987808200000, 5501430273498517653500000⟩,
  ⟨31190600595570041817000, 5501430273498515433100000, 1519615536650988640900000⟩,
  ⟨31190600595570041817000, 2978954189850496203600000, 5501430273498516543300000⟩,
  ⟨31190600595570041817000, 1519615536650986975500000, 2978954189850498424100000⟩,
  ⟨2944590940640668731200, 1125572515239217780100000, 23775457303721542549000⟩,
  ⟨2944590940640668731200, 8850652027457061032900000, 1125572515239217641400000⟩,
  ⟨2944590940640668731200, 23775457303722991043000, 8850652027457062143200000⟩,
  ⟨2944590940640668731200, 8850652027457061032900000, 23775457303721542549000⟩,
  ⟨2944590940640668731200, 1125572515239218196500000, 8850652027457062143200000⟩,
  ⟨2944590940640668731200, 23775457303719313429000, 1125572515239221110800000⟩,
  ⟨1195257809023845635400, 120658629713076021720000, 30492380858381752315000⟩,
  ⟨1195257809023845635400, 9848848989428542477500000, 120658629713075119670000⟩,
  ⟨1195257809023845635400, 30492380858384016129000, 9848848989428543587700000⟩,
  ⟨1195257809023845635400, 9848848989428541367300000, 30492380858381752315000⟩,
  ⟨1195257809023845635400, 120658629713076837040000, 9848848989428543587700000⟩,
  ⟨1195257809023845635400, 30492380858379020125000, 120658629713079612600000⟩,
  ⟨11690668799345606179000, 3906530970863169027800000, 150754657505242934540000⟩,
  ⟨11690668799345606179000, 5942714371631588887700000, 3906530970863169582900000⟩,
  ⟨11690668799345606179000, 150754657505242639640000, 5942714371631589997900000⟩,
  ⟨11690668799345606179000, 5942714371631587777500000, 150754657505242934540000⟩,
  ⟨11690668799345606179000, 3906530970863170138000000, 5942714371631587777500000⟩,
  ⟨11690668799345606179000, 150754657505241529410000, 3906530970863172358400000⟩,
  ⟨5227164853878038444000, 4274107273739701784400000, 28845541075684859138000⟩,
  ⟨5227164853878038444000, 5697047185184612727600000, 4274107273739702339600000⟩,
  ⟨5227164853878038444000, 28845541075684377752000, 5697047185184614948000000⟩,
  ⟨5227164853878038444000, 5697047185184613837800000, 28845541075684859138000⟩,
  ⟨5227164853878038444000, 4274107273739702339600000, 5697047185184613837800000⟩,
  ⟨5227164853878038444000, 28845541075683822640000, 4274107273739704560000000⟩,
  ⟨33835701042112384038000, 2627399736253427375800000, 2627399736253429041200000⟩,
  ⟨33835701042112384038000, 4745200527493144138100000, 2627399736253427931000000⟩,
  ⟨33835701042112384038000, 2627399736253428486100000, 4745200527493145803400000⟩,
  ⟨29950945601547804276000, 4118455220977197406300000, 1047651377258456695300000⟩,
  ⟨29950945601547804276000, 4833893401764346453600000, 4118455220977197961400000⟩,
  ⟨29950945601547804276000, 1047651377258456140100000, 4833893401764347563800000⟩,
  ⟨29950945601547804276000, 4833893401764346453600000, 1047651377258456695300000⟩,
  ⟨29950945601547804276000, 4118455220977197406300000, 4833893401764347008700000⟩,
  ⟨29950945601547804276000, 1047651377258455585000000, 4118455220977199626700000⟩,
  ⟨5118199851502170999100, 4986036392311143372600000, 27927215377713796897000⟩,
  ⟨5118199851502170999100, 4986036392311142817500000, 4986036392311143927700000⟩,
  ⟨5118199851502170999100, 27927215377712977240000, 4986036392311145593000000⟩,
  ⟨11441247936306267637000, 3222211945168436675300000, 148317675755721811030000⟩,
  ⟨11441247936306267637000, 6629470379075842467700000, 3222211945168436675300000⟩,
  ⟨11441247936306267637000, 148317675755722522270000, 6629470379075843578000000⟩,
  ⟨11441247936306267637000, 6629470379075841357500000, 148317675755721811030000⟩,
  ⟨11441247936306267637000, 3222211945168438340700000, 6629470379075841357500000⟩,
  ⟨11441247936306267637000, 148317675755720301820000, 3222211945168439450900000⟩,
  ⟨18052435282779227040000, 3545249016308812950400000, 367451935646271599100000⟩,
  ⟨18052435282779227040000, 6087299048044915172900000, 3545249016308812950400000⟩,
  ⟨18052435282779227040000, 367451935646271321540000, 6087299048044917393300000⟩,
  ⟨18052435282779227040000, 6087299048044915172900000, 367451935646271599100000⟩,
  ⟨18052435282779227040000, 3545249016308813505600000, 6087299048044916283100000⟩,
  ⟨18052435282779227040000, 367451935646270211320000, 3545249016308815726000000⟩,
  ⟨35293289042750844789000, 3320276172987797203000000, 2028329770562542766500000⟩,
  ⟨35293289042750844789000, 4651394056449660308100000, 3320276172987797758100000⟩,
  ⟨35293289042750844789000, 2028329770562541933800000, 4651394056449662528500000⟩,
  ⟨35293289042750844789000, 4651394056449660308100000, 2028329770562542766500000⟩,
  ⟨35293289042750844789000, 3320276172987797203000000, 4651394056449660863200000⟩,
  ⟨35293289042750844789000, 2028329770562541656300000, 3320276172987798868300000⟩,
  ⟨21892762868513794376000, 2530297390847722760500000, 655893176896967106120000⟩,
  ⟨21892762868513794376000, 6813809432255311104900000, 2530297390847722760500000⟩,
  ⟨21892762868513794376000, 655893176896967244890000, 6813809432255312215100000⟩,
  ⟨21892762868513794376000, 6813809432255309994600000, 655893176896967106120000⟩,
  ⟨21892762868513794376000, 2530297390847723315600000, 6813809432255311104900000⟩,
  ⟨21892762868513794376000, 655893176896965024450000, 2530297390847725536000000⟩,
  ⟨5085691794751544129000, 3570399048945097075800000, 28334078818125383800000⟩,
  ⟨5085691794751544129000, 6401266872236777150100000, 3570399048945097630900000⟩,
  ⟨5085691794751544129000, 28334078818125774113000, 6401266872236778260300000⟩,
  ⟨5085691794751544129000, 6401266872236777150100000, 28334078818125383800000⟩,
  ⟨5085691794751544129000, 3570399048945097075800000, 6401266872236778260300000⟩,
  ⟨5085691794751544129000, 28334078818124108778000, 3570399048945099851300000⟩,
  ⟨17277422623602309727000, 2870606892116553954300000, 360525157666744186510000⟩,
  ⟨17277422623602309727000, 6768867950216702622500000, 2870606892116553954300000⟩,
  ⟨17277422623602309727000, 360525157666744533460000, 6768867950216703732700000⟩,
  ⟨17277422623602309727000, 6768867950216701512300000, 360525157666744186510000⟩,
  ⟨17277422623602309727000, 2870606892116553954300000, 6768867950216703732700000⟩,
  ⟨17277422623602309727000, 360525157666742035460000, 2870606892116556729800000⟩,
  ⟨8313096207885970877900, 1361313516311360716200000, 141561971271275018060000⟩,
  ⟨8313096207885970877900, 8497124512417364439200000, 1361313516311360716200000⟩,
  ⟨8313096207885970877900, 141561971271275677250000, 8497124512417366659600000⟩,
  ⟨8313096207885970877900, 8497124512417363329000000, 141561971271275018060000⟩,
  ⟨8313096207885970877900, 1361313516311360993800000, 8497124512417366659600000⟩,
  ⟨8313096207885970877900, 141561971271272485360000, 1361313516311364046900000⟩,
  ⟨16755853266343500446000, 1322241256617750215800000, 637728096721327936120000⟩,
  ⟨16755853266343500446000, 8040030646660920599100000, 1322241256617750215800000⟩,
  ⟨16755853266343500446000, 637728096721328907570000, 8040030646660922819500000⟩,
  ⟨16755853266343500446000, 8040030646660921709300000, 637728096721327936120000⟩,
  ⟨16755853266343500446000, 1322241256617751048500000, 8040030646660922819500000⟩,
  ⟨16755853266343500446000, 637728096721325715680000, 1322241256617752991300000⟩,
  ⟨11932823252664458754000, 1079242198395523322200000, 335534395458731288240000⟩,
  ⟨11932823252664458754000, 8585223406145745528300000, 1079242198395523599800000⟩,
  ⟨11932823252664458754000, 335534395458731427020000, 8585223406145747748800000⟩,
  ⟨11932823252664458754000, 8585223406145744418100000, 335534395458731288240000⟩,
  ⟨11932823252664458754000, 1079242198395523599800000, 8585223406145747748800000⟩,
  ⟨11932823252664458754000, 335534395458728720850000, 1079242198395526791700000⟩,
  ⟨20876894965844222316000, 1528869021413865880700000, 995790446035427906370000⟩,
  ⟨20876894965844222316000, 7475340532550706074100000, 1528869021413865880700000⟩,
  ⟨20876894965844222316000, 995790446035428322700000, 7475340532550708294600000⟩,
  ⟨20876894965844222316000, 7475340532550706074100000, 995790446035427906370000⟩,
  ⟨20876894965844222316000, 1528869021413866158300000, 7475340532550708294600000⟩,
  ⟨20876894965844222316000, 995790446035425824700000, 1528869021413868378700000⟩,
  ⟨19355607442713195030000, 1881017719296066426100000, 646491520250393747470000⟩,
  ⟨19355607442713195030000, 7472490760453539548900000, 1881017719296066703600000⟩,
  ⟨19355607442713195030000, 646491520250393469920000, 7472490760453541769300000⟩,
  ⟨19355607442713195030000, 7472490760453539548900000, 646491520250393747470000⟩,
  ⟨19355607442713195030000, 1881017719296066981200000, 7472490760453541769300000⟩,
  ⟨19355607442713195030000, 646491520250392082140000, 1881017719296069201600000⟩,
  ⟨10961695980219480703000, 2549824291508879237100000, 148987268708079909770000⟩,
  ⟨10961695980219480703000, 7301188439783040662300000, 2549824291508879237100000⟩,
  ⟨10961695980219480703000, 148987268708080100590000, 7301188439783042882800000⟩,
  ⟨10961695980219480703000, 7301188439783040662300000, 148987268708079909770000⟩,
  ⟨10961695980219480703000, 2549824291508879237100000, 7301188439783042882800000⟩,
  ⟨10961695980219480703000, 148987268708078435250000, 2549824291508882012600000⟩,
  ⟨4563661682607606179600, 2230780804812776962900000, 28544472780138571352000⟩,
  ⟨4563661682607606179600, 7740674722407083763200000, 2230780804812777240500000⟩,
  ⟨4563661682607606179600, 28544472780139273915000, 7740674722407085983600000⟩,
  ⟨4563661682607606179600, 7740674722407083763200000, 28544472780138571352000⟩,
  ⟨4563661682607606179600, 2230780804812777518000000, 7740674722407085983600000⟩,
  ⟨4563661682607606179600, 28544472780137053469000, 2230780804812779738500000⟩,
  ⟨36150548664758510621000, 3995665255269702509400000, 2008669489460594703700000⟩,
  ⟨36150548664758510621000, 3995665255269703064500000, 3995665255269703619600000⟩,
  ⟨36150548664758510621000, 2008669489460593871000000, 3995665255269704729800000⟩,
  ⟨4014173263076755912600, 1640507360210325393800000, 28307718211817703077000⟩,
  ⟨4014173263076755912600, 8331184921577856616900000, 1640507360210325671400000⟩,
  ⟨4014173263076755912600, 28307718211818544418000, 8331184921577857727100000⟩,
  ⟨4014173263076755912600, 8331184921577857727100000, 28307718211817703077000⟩,
  ⟨4014173263076755912600, 1640507360210326504000000, 8331184921577857727100000⟩,
  ⟨4014173263076755912600, 28307718211816185194000, 1640507360210328446900000⟩,
  ⟨4896798007893122736700, 2881511174189885782200000, 28359467965889629745000⟩,
  ⟨4896798007893122736700, 7090129357844224822200000, 2881511174189885782200000⟩,
  ⟨4896798007893122736700, 28359467965889950669000, 7090129357844227042700000⟩,
  ⟨4896798007893122736700, 7090129357844224822200000, 28359467965889629745000⟩,
  ⟨4896798007893122736700, 2881511174189885227100000, 7090129357844227042700000⟩,
  ⟨4896798007893122736700, 28359467965888285335000, 2881511174189888002700000⟩,
  ⟨29775433804440395828000, 3409577888740615292400000, 1056326862781779008000000⟩,
  ⟨29775433804440395828000, 5534095248477606254800000, 3409577888740616402600000⟩,
  ⟨29775433804440395828000, 1056326862781778452800000, 5534095248477607365000000⟩,
  ⟨29775433804440395828000, 5534095248477606254800000, 1056326862781779008000000⟩,
  ⟨29775433804440395828000, 3409577888740615847500000, 5534095248477606254800000⟩,
  ⟨29775433804440395828000, 1056326862781777897700000, 3409577888740618067900000⟩,
  ⟨33762576693587712309000, 2682934480692839018800000, 2054088957827467365500000⟩,
  ⟨33762576693587712309000, 5262976561479694170800000, 2682934480692839573900000⟩,
  ⟨33762576693587712309000, 2054088957827466810400000, 5262976561479695281100000⟩,
  ⟨33762576693587712309000, 5262976561479694170800000, 2054088957827467365500000⟩,
  ⟨33762576693587712309000, 2682934480692839018800000, 5262976561479695281100000⟩,
  ⟨33762576693587712309000, 2054088957827465700100000, 2682934480692841239200000⟩,
  ⟨24663373041229471813000, 3194090035283246864500000, 674786310679263284800000⟩,
  ⟨24663373041229471813000, 6131123654037490267000000, 3194090035283247419600000⟩,
  ⟨24663373041229471813000, 674786310679262868460000, 6131123654037492487500000⟩,
  ⟨24663373041229471813000, 6131123654037490267000000, 674786310679263284800000⟩,
  ⟨24663373041229471813000, 3194090035283246864500000, 6131123654037491377300000⟩,
  ⟨24663373041229471813000, 674786310679262313350000, 3194090035283249084900000⟩,
  ⟨9997585618220067825400, 1922954651859522801100000, 149331073629515708600000⟩,
  ⟨9997585618220067825400, 7927714274510960779100000, 1922954651859523078600000⟩,
  ⟨9997585618220067825400, 149331073629515587160000, 7927714274510964109800000⟩,
  ⟨9997585618220067825400, 7927714274510961889300000, 149331073629515708600000⟩,
  ⟨9997585618220067825400, 1922954651859523633700000, 7927714274510962999500000⟩,
  ⟨9997585618220067825400, 149331073629514338160000, 1922954651859525576600000⟩,
  ⟨14290849464137569957000, 1604140534029236120400000, 353852934054426707110000⟩,
  ⟨14290849464137569957000, 8042006531916336964400000, 1604140534029235842800000⟩,
  ⟨14290849464137569957000, 353852934054427747950000, 8042006531916338074600000⟩,
  ⟨14290849464137569957000, 8042006531916338074600000, 353852934054426707110000⟩,
  ⟨14290849464137569957000, 1604140534029237508100000, 8042006531916338074600000⟩,
  ⟨14290849464137569957000, 353852934054424556050000, 1604140534029238895900000⟩,
  ⟨16286914747247111836000, 2212534989804217366900000, 362519958338577280580000⟩,
  ⟨16286914747247111836000, 7424945051857204658700000, 2212534989804217644400000⟩,
  ⟨16286914747247111836000, 362519958338578529580000, 7424945051857205768900000⟩,
  ⟨16286914747247111836000, 7424945051857205768900000, 362519958338577280580000⟩,
  ⟨16286914747247111836000, 2212534989804217922000000, 7424945051857205768900000⟩,
  ⟨16286914747247111836000, 362519958338575476460000, 2212534989804220697500000⟩,
  ⟨29361408291862646329000, 2711942240688135497000000, 1065996969730373805700000⟩,
  ⟨29361408291862646329000, 6222060789581491668800000, 2711942240688135497000000⟩,
  ⟨29361408291862646329000, 1065996969730372834200000, 6222060789581493889200000⟩,
  ⟨29361408291862646329000, 6222060789581490558600000, 1065996969730373805700000⟩,
  ⟨29361408291862646329000, 2711942240688136607200000, 6222060789581491668800000⟩,
  ⟨29361408291862646329000, 1065996969730371724000000, 2711942240688137717400000⟩,
  ⟨25475392237502632493000, 3923234112997703859600000, 665697076536746201740000⟩,
  ⟨25475392237502632493000, 5411068810465550216200000, 3923234112997704414700000⟩,
  ⟨25475392237502632493000, 665697076536745369070000, 5411068810465552436600000⟩,
  ⟨25475392237502632493000, 5411068810465550216200000, 665697076536746201740000⟩,
  ⟨25475392237502632493000, 3923234112997703304500000, 5411068810465551326400000⟩,
  ⟨25475392237502632493000, 665697076536745091510000, 3923234112997706080100000⟩,
  ⟨25669351626192247334000, 4667610577855149656100000, 664778844289701104090000⟩,
  ⟨25669351626192247334000, 4667610577855150211200000, 4667610577855150211200000⟩,
  ⟨25669351626192247334000, 664778844289700410200000, 4667610577855151876600000⟩,
  ⟨19847845196798072874000, 1030954855760304878000000, 1030954855760307653500000⟩,
  ⟨19847845196798072874000, 7938090288479388023600000, 1030954855760304739200000⟩,
  ⟨19847845196798072874000, 1030954855760308763700000, 7938090288479389133900000⟩]

/-- `HardcodedQuadRule<kTria, 42>()`; /repo/lib/lf/quad/quad_rules_tria.cc:14114-15092. -/
def triaTab42 : List TabRow := [
  ⟨17732200079885835839000, 4023719251097932492200000, 1952561497804135015600000⟩,
  ⟨17732200079885835839000, 4023719251097932492200000, 4023719251097934157500000⟩,
  ⟨17732200079885835839000, 1952561497804133905400000, 4023719251097934712600000⟩,
  ⟨173597677182810482880, 13653925759540403145000, 13653925759543350006000⟩,
  ⟨173597677182810482880, 9972692148480916118900000, 13653925759540145105000⟩,
  ⟨173597677182810482880, 13653925759544160989000, 9972692148480918339400000⟩,
  ⟨2663658471702661911100, 3305538536843531383100000, 15704256014629062489000⟩,
  ⟨2663658471702661911100, 6678757207141838847500000, 3305538536843532493300000⟩,
  ⟨2663658471702661911100, 15704256014628659166000, 6678757207141842178200000⟩,
  ⟨2663658471702661911100, 6678757207141839957700000, 15704256014629062489000⟩,
  ⟨2663658471702661911100, 3305538536843532493300000, 6678757207141839957700000⟩,
  ⟨2663658471702661911100, 15704256014627548943000, 3305538536843535268900000⟩,
  ⟨5070848214163679607700, 4975317296252053656000000, 49365407495893165110000⟩,
  ⟨5070848214163679607700, 4975317296252053656000000, 4975317296252054211100000⟩,
  ⟨5070848214163679607700, 49365407495892410505000, 4975317296252055876400000⟩,
  ⟨2195385135849119823600, 9699539651466831946500000, 96146691207100905274000⟩,
  ⟨2195385135849119823600, 204313657326066766550000, 9699539651466834167000000⟩,
  ⟨2195385135849119823600, 96146691207098945037000, 204313657326069784970000⟩,
  ⟨2195385135849119823600, 204313657326066697160000, 96146691207100905274000⟩,
  ⟨2195385135849119823600, 9699539651466831946500000, 204313657326065933880000⟩,
  ⟨2195385135849119823600, 96146691207102397136000, 9699539651466834167000000⟩,
  ⟨5185125232677132833100, 571983061939756801120000, 219035586156293565760000⟩,
  ⟨5185125232677132833100, 9208981351903949841300000, 571983061939756662340000⟩,
  ⟨5185125232677132833100, 219035586156294259650000, 9208981351903952061700000⟩,
  ⟨5185125232677132833100, 9208981351903949841300000, 219035586156293565760000⟩,
  ⟨5185125232677132833100, 571983061939757564400000, 9208981351903952061700000⟩,
  ⟨5185125232677132833100, 219035586156291171840000, 571983061939759854230000⟩,
  ⟨14220929785061196815000, 4799002957544191150200000, 401994084911617491350000⟩,
  ⟨14220929785061196815000, 4799002957544191705400000, 4799002957544191705400000⟩,
  ⟨14220929785061196815000, 401994084911616866850000, 4799002957544193370700000⟩,
  ⟨9354907690114397898800, 664663290557835906290000, 664663290557838820630000⟩,
  ⟨9354907690114397898800, 8670673418884324856700000, 664663290557836045070000⟩,
  ⟨9354907690114397898800, 664663290557838681850000, 8670673418884327077200000⟩,
  ⟨2797759751140219282800, 4532709716379456077500000, 14935512902909868580000⟩,
  ⟨2797759751140219282800, 5452354770717634524500000, 4532709716379456632600000⟩,
  ⟨2797759751140219282800, 14935512902908842925000, 5452354770717636744900000⟩,
  ⟨2797759751140219282800, 5452354770717634524500000, 14935512902909868580000⟩,
  ⟨2797759751140219282800, 4532709716379456077500000, 5452354770717635634700000⟩,
  ⟨2797759751140219282800, 14935512902908842925000, 4532709716379458297900000⟩,
  ⟨12689602532323859818000, 1407324739067203345200000, 554414996743645416280000⟩,
  ⟨12689602532323859818000, 8038260264189150960900000, 1407324739067203345200000⟩,
  ⟨12689602532323859818000, 554414996743645693830000, 8038260264189153181400000⟩,
  ⟨12689602532323859818000, 8038260264189150960900000, 554414996743645416280000⟩,
  ⟨12689602532323859818000, 1407324739067203345200000, 8038260264189153181400000⟩,
  ⟨12689602532323859818000, 554414996743643334610000, 1407324739067206398300000⟩,
  ⟨20290788990569787360000, 1837886303019410361200000, 1186935694213950010000000⟩,
  ⟨20290788990569787360000, 6975178002766639906400000, 1837886303019410361200000⟩,
  ⟨20290788990569787360000, 1186935694213950842600000, 6975178002766641016700000⟩,
  ⟨20290788990569787360000, 6975178002766638796200000, 1186935694213950010000000⟩,
  ⟨20290788990569787360000, 1837886303019410916300000, 6975178002766641016700000⟩,
  ⟨20290788990569787360000, 1186935694213947928300000, 1837886303019412859200000⟩,
  ⟨6663125002039902745900, 432363893877459951050000, 432363893877463073560000⟩,
  ⟨6663125002039902745900, 9135272212245075795800000, 432363893877459881670000⟩,
  ⟨6663125002039902745900, 432363893877464322560000, 9135272212245078016200000⟩,
  ⟨1133212876037456503000, 321121524868778346340000, 13930572171861558411000⟩,
  ⟨1133212876037456503000, 9664947902959358794200000, 321121524868778346340000⟩,
  ⟨1133212876037456503000, 13930572171864108455000, 9664947902959359904400000⟩,
  ⟨1133212876037456503000, 9664947902959361014700000, 13930572171861558411000⟩,
  ⟨1133212876037456503000, 321121524868780428010000, 9664947902959359904400000⟩,
  ⟨1133212876037456503000, 13930572171858800201000, 321121524868782162730000⟩,
  ⟨10963408407929421153000, 4903050142016466828000000, 193899715967066621490000⟩,
  ⟨10963408407929421153000, 4903050142016467383100000, 4903050142016466828000000⟩,
  ⟨10963408407929421153000, 193899715967066066380000, 4903050142016469048500000⟩,
  ⟨3409266715707482526200, 429640722006761482940000, 102994751818414106290000⟩,
  ⟨3409266715707482526200, 9467364526174824046500000, 429640722006760719660000⟩,
  ⟨3409266715707482526200, 102994751818415997140000, 9467364526174826266900000⟩,
  ⟨3409266715707482526200, 9467364526174824046500000, 102994751818414106290000⟩,
  ⟨3409266715707482526200, 429640722006762176830000, 9467364526174826266900000⟩,
  ⟨3409266715707482526200, 102994751818411139910000, 429640722006765229950000⟩,
  ⟨935465343078011708160, 105248427300748837590000, 25847099922881836172000⟩,
  ⟨935465343078011708160, 9868904472776369729600000, 105248427300748681470000⟩,
  ⟨935465343078011708160, 25847099922882699197000, 9868904472776370839800000⟩,
  ⟨935465343078011708160, 9868904472776369729600000, 25847099922881836172000⟩,
  ⟨935465343078011708160, 105248427300749791690000, 9868904472776370839800000⟩,
  ⟨935465343078011708160, 25847099922878605249000, 105248427300751873360000⟩,
  ⟨8433148349118659448800, 753790285629702960790000, 394743127161576515260000⟩,
  ⟨8433148349118659448800, 8851466587208720593300000, 753790285629702822010000⟩,
  ⟨8433148349118659448800, 394743127161577000980000, 8851466587208721703600000⟩,
  ⟨8433148349118659448800, 8851466587208720593300000, 394743127161576515260000⟩,
  ⟨8433148349118659448800, 753790285629703515900000, 8851466587208721703600000⟩,
  ⟨8433148349118659448800, 394743127161574225430000, 753790285629706291460000⟩,
  ⟨9512748982289498779800, 4363333620899559894800000, 122938385245525295260000⟩,
  ⟨9512748982289498779800, 5513727993854914410900000, 4363333620899560449900000⟩,
  ⟨9512748982289498779800, 122938385245525139130000, 5513727993854916631400000⟩,
  ⟨9512748982289498779800, 5513727993854914410900000, 122938385245525295260000⟩,
  ⟨9512748982289498779800, 4363333620899559894800000, 5513727993854915521200000⟩,
  ⟨9512748982289498779800, 122938385245524028910000, 4363333620899563225500000⟩,
  ⟨3866835126498902822800, 2704907465149769541000000, 25898092478456873240000⟩,
  ⟨3866835126498902822800, 7269194442371773590100000, 2704907465149769541000000⟩,
  ⟨3866835126498902822800, 25898092478456868903000, 7269194442371775810600000⟩,
  ⟨3866835126498902822800, 7269194442371772479900000, 25898092478456873240000⟩,
  ⟨3866835126498902822800, 2704907465149769541000000, 7269194442371775810600000⟩,
  ⟨3866835126498902822800, 25898092478454648457000, 2704907465149772871600000⟩,
  ⟨15861939454501197341000, 3508136433810973842100000, 375563888722968697300000⟩,
  ⟨15861939454501197341000, 6116299677466058293300000, 3508136433810973842100000⟩,
  ⟨15861939454501197341000, 375563888722967864630000, 6116299677466060513700000⟩,
  ⟨15861939454501197341000, 6116299677466057183000000, 375563888722968697300000⟩,
  ⟨15861939454501197341000, 3508136433810973842100000, 6116299677466058293300000⟩,
  ⟨15861939454501197341000, 375563888722967587070000, 3508136433810976062600000⟩,
  ⟨10842623549308710515000, 3727655119742921408000000, 170945467207073396880000⟩,
  ⟨10842623549308710515000, 6101399413050005993100000, 3727655119742921408000000⟩,
  ⟨10842623549308710515000, 170945467207073154010000, 6101399413050007103400000⟩,
  ⟨10842623549308710515000, 6101399413050005993100000, 170945467207073396880000⟩,
  ⟨10842623549308710515000, 3727655119742921408000000, 6101399413050007103400000⟩,
  ⟨10842623549308710515000, 170945467207071766240000, 3727655119742923628400000⟩,
  ⟨20370587368203569092000, 2171073522633415464600000, 857583162943158783250000⟩,
  ⟨20370587368203569092000, 6971343314423426029700000, 2171073522633415742200000⟩,
  ⟨20370587368203569092000, 857583162943158505700000, 6971343314423428250100000⟩,
  ⟨20370587368203569092000, 6971343314423426029700000, 857583162943158783250000⟩,
  ⟨20370587368203569092000, 2171073522633415464600000, 6971343314423428250100000⟩,
  ⟨20370587368203569092000, 857583162943157117920000, 2171073522633418240200000⟩,
  ⟨16860445071980752468000, 1927563650090058367000000, 579856449641143953390000⟩,
  ⟨16860445071980752468000, 7492579900268797610300000, 1927563650090058644500000⟩,
  ⟨16860445071980752468000, 579856449641144577890000, 7492579900268798720500000⟩,
  ⟨16860445071980752468000, 7492579900268797610300000, 579856449641143953390000⟩,
  ⟨16860445071980752468000, 1927563650090059477200000, 7492579900268798720500000⟩,
  ⟨16860445071980752468000, 579856449641141941110000, 1927563650090061420100000⟩,
  ⟨16687327076746506782000, 4206850306864162725200000, 338481728829903155690000⟩,
  ⟨16687327076746506782000, 5454667964305934813000000, 4206850306864163280300000⟩,
  ⟨16687327076746506782000, 338481728829903016910000, 5454667964305935923300000⟩,
  ⟨16687327076746506782000, 5454667964305934813000000, 338481728829903155690000⟩,
  ⟨16687327076746506782000, 4206850306864162170100000, 5454667964305935923300000⟩,
  ⟨16687327076746506782000, 338481728829902461800000, 4206850306864164945600000⟩,
  ⟨4762029778273406421300, 269988226283729981780000, 269988226283732757340000⟩,
  ⟨4762029778273406421300, 9460023547432536705800000, 269988226283729565450000⟩,
  ⟨4762029778273406421300, 269988226283734422670000, 9460023547432537816000000⟩,
  ⟨3721502303561135443000, 2124851854370910508900000, 25266913852086481454000⟩,
  ⟨3721502303561135443000, 7849881231777002810200000, 2124851854370910786400000⟩,
  ⟨3721502303561135443000, 25266913852086680947000, 7849881231777005030600000⟩,
  ⟨3721502303561135443000, 7849881231777002810200000, 25266913852086481454000⟩,
  ⟨3721502303561135443000, 2124851854370910508900000, 7849881231777005030600000⟩,
  ⟨3721502303561135443000, 25266913852084876835000, 2124851854370913006900000⟩,
  ⟨8745028287546429118100, 3192572087291873361700000, 106565421155276375540000⟩,
  ⟨8745028287546429118100, 6700862491552849187200000, 3192572087291873916800000⟩,
  ⟨8745028287546429118100, 106565421155276340850000, 6700862491552852517900000⟩,
  ⟨8745028287546429118100, 6700862491552850297400000, 106565421155276375540000⟩,
  ⟨8745028287546429118100, 3192572087291874471900000, 6700862491552851407700000⟩,
  ⟨8745028287546429118100, 106565421155274953070000, 3192572087291876692400000⟩,
  ⟨21799250209462335548000, 1385048069103227697000000, 1385048069103230195000000⟩,
  ⟨21799250209462335548000, 7229903861793541830500000, 1385048069103227974500000⟩,
  ⟨21799250209462335548000, 1385048069103231305200000, 7229903861793541830500000⟩,
  ⟨22662661275163753505000, 4670132073557639595900000, 659735852884720808120000⟩,
  ⟨22662661275163753505000, 4670132073557640151100000, 4670132073557640706200000⟩,
  ⟨22662661275163753505000, 659735852884719975450000, 4670132073557641816400000⟩,
  ⟨9515841977190134725800, 2516382355125725833700000, 134296732422585305550000⟩,
  ⟨9515841977190134725800, 7349320912451688947400000, 2516382355125726388900000⟩,
  ⟨9515841977190134725800, 134296732422585773930000, 7349320912451690057700000⟩,
  ⟨9515841977190134725800, 7349320912451688947400000, 134296732422585305550000⟩,
  ⟨9515841977190134725800, 2516382355125726944000000, 7349320912451688947400000⟩,
  ⟨9515841977190134725800, 134296732422582998370000, 2516382355125729164400000⟩,
  ⟨19790722453782963637000, 1522119814568093643100000, 883417782932650746950000⟩,
  ⟨19790722453782963637000, 7594462402499255748700000, 1522119814568093920700000⟩,
  ⟨19790722453782963637000, 883417782932651163290000, 7594462402499256858900000⟩,
  ⟨19790722453782963637000, 7594462402499255748700000, 883417782932650746950000⟩,
  ⟨19790722453782963637000, 1522119814568093643100000, 7594462402499257969200000⟩,
  ⟨19790722453782963637000, 883417782932648248950000, 1522119814568096141100000⟩,
  ⟨10816650059587544237000, 1111420947940332804000000, 329221182111608043350000⟩,
  ⟨10816650059587544237000, 8559357869948058805700000, 1111420947940333081600000⟩,
  ⟨10816650059587544237000, 329221182111609222960000, 8559357869948059915900000⟩,
  ⟨10816650059587544237000, 8559357869948059915900000, 329221182111608043350000⟩,
  ⟨10816650059587544237000, 1111420947940334191800000, 8559357869948059915900000⟩,
  ⟨10816650059587544237000, 329221182111605684130000, 1111420947940336273500000⟩,
  ⟨31333706982709106162000, 3581500588512502858400000, 1948007607773277194400000⟩,
  ⟨31333706982709106162000, 4470491803714220502300000, 3581500588512503413500000⟩,
  ⟨31333706982709106162000, 1948007607773275806600000, 4470491803714222167600000⟩,
  ⟨31333706982709106162000, 4470491803714220502300000, 1948007607773277194400000⟩,
  ⟨31333706982709106162000, 3581500588512502858400000, 4470491803714221057400000⟩,
  ⟨31333706982709106162000, 1948007607773275806600000, 3581500588512504523700000⟩,
  ⟨12157354723764043913000, 1637998569561500694600000, 314610159618917972770000⟩,
  ⟨12157354723764043913000, 8047391270819581610100000, 1637998569561500694600000⟩,
  ⟨12157354723764043913000, 314610159618918805440000, 8047391270819582720400000⟩,
  ⟨12157354723764043913000, 8047391270819581610100000, 314610159618917972770000⟩,
  ⟨12157354723764043913000, 1637998569561501249800000, 8047391270819582720400000⟩,
  ⟨12157354723764043913000, 314610159618915613540000, 1637998569561503747800000⟩,
  ⟨14132890488012272469000, 1021127733366743173300000, 673683101645258797240000⟩,
  ⟨14132890488012272469000, 8305189164987998307100000, 1021127733366743173300000⟩,
  ⟨14132890488012272469000, 673683101645259907460000, 8305189164987999417300000⟩,
  ⟨14132890488012272469000, 8305189164987997196800000, 673683101645258797240000⟩,
  ⟨14132890488012272469000, 1021127733366744005900000, 8305189164987999417300000⟩,
  ⟨14132890488012272469000, 673683101645256299240000, 1021127733366746365200000⟩,
  ⟨32376781127416410198000, 2335557030193515792900000, 1865652441999727795300000⟩,
  ⟨32376781127416410198000, 5798790527806756411900000, 2335557030193516625500000⟩,
  ⟨32376781127416410198000, 1865652441999727240200000, 5798790527806758632300000⟩,
  ⟨32376781127416410198000, 5798790527806756411900000, 1865652441999727795300000⟩,
  ⟨32376781127416410198000, 2335557030193515792900000, 5798790527806758632300000⟩,
  ⟨32376781127416410198000, 1865652441999725574800000, 2335557030193517735700000⟩,
  ⟨21242412256270932006000, 3214164628317113248100000, 638834834123953448910000⟩,
  ⟨21242412256270932006000, 6147000537558933164200000, 3214164628317113803200000⟩,
  ⟨21242412256270932006000, 638834834123953587690000, 6147000537558934274400000⟩,
  ⟨21242412256270932006000, 6147000537558933164200000, 638834834123953448910000⟩,
  ⟨21242412256270932006000, 3214164628317113803200000, 6147000537558934274400000⟩,
  ⟨21242412256270932006000, 638834834123951922360000, 3214164628317116578800000⟩,
  ⟨14550429545311270238000, 2233361848957125528300000, 325712217949498672450000⟩,
  ⟨14550429545311270238000, 7440925933093376354300000, 2233361848957125805900000⟩,
  ⟨14550429545311270238000, 325712217949498672450000, 7440925933093378574800000⟩,
  ⟨14550429545311270238000, 7440925933093376354300000, 325712217949498672450000⟩,
  ⟨14550429545311270238000, 2233361848957125528300000, 7440925933093377464500000⟩,
  ⟨14550429545311270238000, 325712217949497007120000, 2233361848957128303900000⟩,
  ⟨8771971654657036631900, 1905881189463202729500000, 132734827561577940070000⟩,
  ⟨8771971654657036631900, 7961383982975218653900000, 1905881189463202452000000⟩,
  ⟨8771971654657036631900, 132734827561579171730000, 7961383982975220874300000⟩,
  ⟨8771971654657036631900, 7961383982975219764100000, 132734827561577940070000⟩,
  ⟨8771971654657036631900, 1905881189463203284600000, 7961383982975220874300000⟩,
  ⟨8771971654657036631900, 132734827561576396170000, 1905881189463205505100000⟩,
  ⟨26639071817662891666000, 2273558402454795013300000, 1362337755091280744300000⟩,
  ⟨26639071817662891666000, 6364103842453923132200000, 2273558402454795845900000⟩,
  ⟨26639071817662891666000, 1362337755091280744300000, 6364103842453925352600000⟩,
  ⟨26639071817662891666000, 6364103842453924242400000, 1362337755091280744300000⟩,
  ⟨26639071817662891666000, 2273558402454796678600000, 6364103842453924242400000⟩,
  ⟨26639071817662891666000, 1362337755091279356500000, 2273558402454797788800000⟩,
  ⟨18480353307769384341000, 1065804258588587960500000, 1065804258588590597300000⟩,
  ⟨18480353307769384341000, 7868391482822821858500000, 1065804258588588376800000⟩,
  ⟨18480353307769384341000, 1065804258588590736100000, 7868391482822822968800000⟩,
  ⟨3558677575266900304000, 1567679227871600355900000, 26153775338892213537000⟩,
  ⟨3558677575266900304000, 8406166996789506962200000, 1567679227871600633500000⟩,
  ⟨3558677575266900304000, 26153775338892404356000, 8406166996789509182600000⟩,
  ⟨3558677575266900304000, 8406166996789506962200000, 26153775338892213537000⟩,
  ⟨3558677575266900304000, 1567679227871601743700000, 8406166996789506962200000⟩,
  ⟨3558677575266900304000, 26153775338890322688000, 1567679227871604241700000⟩,
  ⟨7842598090717185169800, 1340333349867784684700000, 134812112051568063630000⟩,
  ⟨7842598090717185169800, 8524854538080647303700000, 1340333349867784684700000⟩,
  ⟨7842598090717185169800, 134812112051568844250000, 8524854538080648414000000⟩,
  ⟨7842598090717185169800, 8524854538080647303700000, 134812112051568063630000⟩,
  ⟨7842598090717185169800, 1340333349867784962200000, 8524854538080648414000000⟩,
  ⟨7842598090717185169800, 134812112051565513580000, 1340333349867788292900000⟩,
  ⟨34548418516926666412000, 2957211757454535905300000, 1918841043522062639300000⟩,
  ⟨34548418516926666412000, 5123947199023402010500000, 2957211757454537015600000⟩,
  ⟨34548418516926666412000, 1918841043522062084200000, 5123947199023403120700000⟩,
  ⟨34548418516926666412000, 5123947199023402010500000, 1918841043522062639300000⟩,
  ⟨34548418516926666412000, 2957211757454536460400000, 5123947199023402010500000⟩,
  ⟨34548418516926666412000, 1918841043522060974000000, 2957211757454538680900000⟩,
  ⟨3038834446692079941000, 1067192718130003659100000, 25472816321698366418000⟩,
  ⟨3038834446692079941000, 8907334465548297775000000, 1067192718130003381600000⟩,
  ⟨3038834446692079941000, 25472816321698843467000, 8907334465548301105600000⟩,
  ⟨3038834446692079941000, 8907334465548297775000000, 25472816321698366418000⟩,
  ⟨3038834446692079941000, 1067192718130002826400000, 8907334465548301105600000⟩,
  ⟨3038834446692079941000, 25472816321696137298000, 1067192718130006573500000⟩,
  ⟨29299530252759001941000, 4125664194839165355200000, 1010372943557596853200000⟩,
  ⟨29299530252759001941000, 4863962861603237652900000, 4125664194839165910300000⟩,
  ⟨29299530252759001941000, 1010372943557596436800000, 4863962861603239318200000⟩,
  ⟨29299530252759001941000, 4863962861603237652900000, 1010372943557596853200000⟩,
  ⟨29299530252759001941000, 4125664194839165355200000, 4863962861603238208000000⟩,
  ⟨29299530252759001941000, 1010372943557595881700000, 4125664194839167020500000⟩,
  ⟨38825930203148432789000, 3078519829928860751500000, 2497507411652887809900000⟩,
  ⟨38825930203148432789000, 4423972758418251993700000, 3078519829928861306600000⟩,
  ⟨38825930203148432789000, 2497507411652886699600000, 4423972758418253103900000⟩,
  ⟨38825930203148432789000, 4423972758418250883500000, 2497507411652887809900000⟩,
  ⟨38825930203148432789000, 3078519829928860751500000, 4423972758418253103900000⟩,
  ⟨38825930203148432789000, 2497507411652886422100000, 3078519829928862416900000⟩,
  ⟨6550204164930561621600, 870205486996966370850000, 137126252885580324910000⟩,
  ⟨6550204164930561621600, 8992668260117453460400000, 870205486996966648410000⟩,
  ⟨6550204164930561621600, 137126252885581001450000, 8992668260117455680800000⟩,
  ⟨6550204164930561621600, 8992668260117453460400000, 137126252885580324910000⟩,
  ⟨6550204164930561621600, 870205486996966648410000, 8992668260117455680800000⟩,
  ⟨6550204164930561621600, 137126252885577740170000, 870205486996969840300000⟩,
  ⟨5285486245861350856600, 3894283316812197082200000, 33445954334026476579000⟩,
  ⟨5285486245861350856600, 6072270728853776944300000, 3894283316812197637300000⟩,
  ⟨5285486245861350856600, 33445954334025973509000, 6072270728853779164800000⟩,
  ⟨5285486245861350856600, 6072270728853776944300000, 33445954334026476579000⟩,
  ⟨5285486245861350856600, 3894283316812196527000000, 6072270728853778054600000⟩,
  ⟨5285486245861350856600, 33445954334025695953000, 3894283316812199857700000⟩,
  ⟨40486688045141949049000, 3117353910725872978600000, 3117353910725874643900000⟩,
  ⟨40486688045141949049000, 3765292178548252377500000, 3117353910725874088800000⟩,
  ⟨40486688045141949049000, 3117353910725872978600000, 3765292178548253487800000⟩,
  ⟨20205988253753004100000, 2612939703141770042500000, 556746304306052139380000⟩,
  ⟨20205988253753004100000, 6830313992552178303800000, 2612939703141770042500000⟩,
  ⟨20205988253753004100000, 556746304306052208770000, 6830313992552180524200000⟩,
  ⟨20205988253753004100000, 6830313992552177193600000, 556746304306052139380000⟩,
  ⟨20205988253753004100000, 2612939703141770042500000, 6830313992552179414000000⟩,
  ⟨20205988253753004100000, 556746304306050543430000, 2612939703141772263000000⟩,
  ⟨2621239456729690885600, 649755331098118837920000, 28037585935402663598000⟩,
  ⟨2621239456729690885600, 9322207082966478264300000, 649755331098118560360000⟩,
  ⟨2621239456729690885600, 28037585935404285564000, 9322207082966479374500000⟩,
  ⟨2621239456729690885600, 9322207082966478264300000, 28037585935402663598000⟩,
  ⟨2621239456729690885600, 649755331098119115470000, 9322207082966479374500000⟩,
  ⟨2621239456729690885600, 28037585935400746728000, 649755331098122307370000⟩,
  ⟨26024340031600545070000, 2719500060981309697000000, 963505000772398451090000⟩,
  ⟨26024340031600545070000, 6316994938246290880500000, 2719500060981310807200000⟩,
  ⟨26024340031600545070000, 963505000772398867430000, 6316994938246291990700000⟩,
  ⟨26024340031600545070000, 6316994938246291990700000, 963505000772398451090000⟩,
  ⟨26024340031600545070000, 2719500060981311362300000, 6316994938246291990700000⟩,
  ⟨26024340031600545070000, 963505000772396369420000, 2719500060981313027700000⟩,
  ⟨15166556631349360686000, 2930903642725461999400000, 291991066004359950400000⟩,
  ⟨15166556631349360686000, 6777105291270177911400000, 2930903642725462554500000⟩,
  ⟨15166556631349360686000, 291991066004360089180000, 6777105291270180131800000⟩,
  ⟨15166556631349360686000, 6777105291270177911400000, 291991066004359950400000⟩,
  ⟨15166556631349360686000, 2930903642725462554500000, 6777105291270179021600000⟩,
  ⟨15166556631349360686000, 291991066004358423850000, 2930903642725465330100000⟩,
  ⟨24342761801989343078000, 3946648265878192063400000, 635745506621691741640000⟩,
  ⟨24342761801989343078000, 5417606227500116888900000, 3946648265878192618500000⟩,
  ⟨24342761801989343078000, 635745506621691602870000, 5417606227500117999100000⟩,
  ⟨24342761801989343078000, 5417606227500115778600000, 635745506621691741640000⟩,
  ⟨24342761801989343078000, 3946648265878192618500000, 5417606227500116888900000⟩,
  ⟨24342761801989343078000, 635745506621691047760000, 3946648265878194283800000⟩,
  ⟨33014363090444823201000, 3568522181929827952200000, 1439285800655438485300000⟩,
  ⟨33014363090444823201000, 4992192017414733284900000, 3568522181929828507300000⟩,
  ⟨33014363090444823201000, 1439285800655437930200000, 4992192017414735505400000⟩,
  ⟨33014363090444823201000, 4992192017414733840000000, 1439285800655438485300000⟩,
  ⟨33014363090444823201000, 3568522181929828507300000, 4992192017414734395200000⟩,
  ⟨33014363090444823201000, 1439285800655437375100000, 3568522181929830172600000⟩,
  ⟨36453005263933861008000, 2448605758688817135600000, 2448605758688818800900000⟩,
  ⟨36453005263933861008000, 5102788482622363508400000, 2448605758688817968200000⟩,
  ⟨36453005263933861008000, 2448605758688818245800000, 5102788482622365728900000⟩,
  ⟨28265683441562015898000, 3413613516388762647600000, 992086997532997810770000⟩,
  ⟨28265683441562015898000, 5594299486078240235500000, 3413613516388763757800000⟩,
  ⟨28265683441562015898000, 992086997532997671990000, 5594299486078241345800000⟩,
  ⟨28265683441562015898000, 5594299486078240235500000, 992086997532997810770000⟩,
  ⟨28265683441562015898000, 3413613516388762647600000, 5594299486078240235500000⟩,
  ⟨28265683441562015898000, 992086997532996561770000, 3413613516388764868000000⟩,
  ⟨30959645061719681496000, 2895129410795145852300000, 1403889214214628922100000⟩,
  ⟨30959645061719681496000, 5700981374990226058200000, 2895129410795146407400000⟩,
  ⟨30959645061719681496000, 1403889214214628089500000, 5700981374990227168500000⟩,
  ⟨30959645061719681496000, 5700981374990226058200000, 1403889214214628922100000⟩,
  ⟨30959645061719681496000, 2895129410795146407400000, 5700981374990226058200000⟩,
  ⟨30959645061719681496000, 1403889214214627256800000, 2895129410795148072700000⟩,
  ⟨30277633910126854934000, 1748351458111906398000000, 1748351458111908618400000⟩,
  ⟨30277633910126854934000, 6503297083776183873400000, 1748351458111906953100000⟩,
  ⟨30277633910126854934000, 1748351458111908618400000, 6503297083776187204100000⟩,
  ⟨33794723196148837227000, 4275693341501903832500000, 1448613316996192612600000⟩,
  ⟨33794723196148837227000, 4275693341501903832500000, 4275693341501904387600000⟩,
  ⟨33794723196148837227000, 1448613316996191224800000, 4275693341501906052900000⟩,
  ⟨39610222882956562518000, 3742701566784476519000000, 2514596866431046962000000⟩,
  ⟨39610222882956562518000, 3742701566784477074100000, 3742701566784477629200000⟩,
  ⟨39610222882956562518000, 2514596866431045851800000, 3742701566784478184300000⟩]

end Verif
