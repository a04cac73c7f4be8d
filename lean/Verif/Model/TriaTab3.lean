import Verif.Model.TriaTabBase

/-! Generated by tools/quad_tables.py from /repo/lib/lf/quad/quad_rules_tria.cc. -/

namespace Verif

/-- `HardcodedQuadRule<kTria, 38>()`; /repo/lib/lf/quad/quad_rules_tria.cc:10615-11422. -/
def triaTab38 : List TabRow := [
  ⟨15819822201419615239000, 4590721360317645549600000, 818557279364708900720000⟩,
  ⟨15819822201419615239000, 4590721360317645549600000, 4590721360317646104800000⟩,
  ⟨15819822201419615239000, 818557279364708345600000, 4590721360317647770100000⟩,
  ⟨12425026155713258299000, 2837655147017407175600000, 522971139020114439420000⟩,
  ⟨12425026155713258299000, 6639373713962479772700000, 2837655147017407175600000⟩,
  ⟨12425026155713258299000, 522971139020114161870000, 6639373713962480883000000⟩,
  ⟨12425026155713258299000, 6639373713962478662500000, 522971139020114439420000⟩,
  ⟨12425026155713258299000, 2837655147017407175600000, 6639373713962479772700000⟩,
  ⟨12425026155713258299000, 522971139020113606750000, 2837655147017409396100000⟩,
  ⟨29308291095543220241000, 3932680062553600697200000, 2134639874892799160700000⟩,
  ⟨29308291095543220241000, 3932680062553600697200000, 3932680062553601252300000⟩,
  ⟨29308291095543220241000, 2134639874892797772900000, 3932680062553602362600000⟩,
  ⟨18482445803534141692000, 1285165649696939360600000, 990797627018412813140000⟩,
  ⟨18482445803534141692000, 7724036723284647409900000, 1285165649696939638200000⟩,
  ⟨18482445803534141692000, 990797627018413784580000, 7724036723284648520100000⟩,
  ⟨18482445803534141692000, 7724036723284647409900000, 990797627018412813140000⟩,
  ⟨18482445803534141692000, 1285165649696941025900000, 7724036723284648520100000⟩,
  ⟨18482445803534141692000, 990797627018410731470000, 1285165649696942691300000⟩,
  ⟨19651084518505722819000, 4681825892069356731500000, 636348215861286259360000⟩,
  ⟨19651084518505722819000, 4681825892069356731500000, 4681825892069357841800000⟩,
  ⟨19651084518505722819000, 636348215861285149140000, 4681825892069359507100000⟩,
  ⟨1738521994968497057100, 413075041428614328500000, 20644051493051871968000⟩,
  ⟨1738521994968497057100, 9566280907078332784700000, 413075041428614189720000⟩,
  ⟨1738521994968497057100, 20644051493053927615000, 9566280907078335005200000⟩,
  ⟨1738521994968497057100, 9566280907078333894900000, 20644051493051871968000⟩,
  ⟨1738521994968497057100, 413075041428615508110000, 9566280907078335005200000⟩,
  ⟨1738521994968497057100, 20644051493048549972000, 413075041428617381610000⟩,
  ⟨10369134369703893270000, 892719800534144680700000, 367301756493483427810000⟩,
  ⟨10369134369703893270000, 8739978442972371475200000, 892719800534144403150000⟩,
  ⟨10369134369703893270000, 367301756493484399260000, 8739978442972373695600000⟩,
  ⟨10369134369703893270000, 8739978442972371475200000, 367301756493483427810000⟩,
  ⟨10369134369703893270000, 892719800534145235820000, 8739978442972373695600000⟩,
  ⟨10369134369703893270000, 367301756493480929810000, 892719800534147733820000⟩,
  ⟨36855205450056259878000, 3372052923179872374600000, 2259458244877857180400000⟩,
  ⟨36855205450056259878000, 4368488831942271000100000, 3372052923179873484800000⟩,
  ⟨36855205450056259878000, 2259458244877856347700000, 4368488831942271555200000⟩,
  ⟨36855205450056259878000, 4368488831942271000100000, 2259458244877857180400000⟩,
  ⟨36855205450056259878000, 3372052923179872374600000, 4368488831942271555200000⟩,
  ⟨36855205450056259878000, 2259458244877855792600000, 3372052923179874039900000⟩,
  ⟨15626990572199265725000, 2738513741241787036200000, 327011819900537709090000⟩,
  ⟨15626990572199265725000, 6934474438857674005700000, 2738513741241787591300000⟩,
  ⟨15626990572199265725000, 327011819900537847870000, 6934474438857677336400000⟩,
  ⟨15626990572199265725000, 6934474438857675116000000, 327011819900537709090000⟩,
  ⟨15626990572199265725000, 2738513741241787591300000, 6934474438857677336400000⟩,
  ⟨15626990572199265725000, 327011819900535904980000, 2738513741241789811700000⟩,
  ⟨4530881072260284402400, 399162626294194411440000, 130695090443300153400000⟩,
  ⟨4530881072260284402400, 9470142283262504845400000, 399162626294194342050000⟩,
  ⟨4530881072260284402400, 130695090443302408540000, 9470142283262505955600000⟩,
  ⟨4530881072260284402400, 9470142283262505955600000, 130695090443300153400000⟩,
  ⟨4530881072260284402400, 399162626294196076770000, 9470142283262505955600000⟩,
  ⟨4530881072260284402400, 130695090443296926820000, 399162626294198158440000⟩,
  ⟨3497348836648006033300, 175045040462672892020000, 175045040462675979830000⟩,
  ⟨3497348836648006033300, 9649909919074649566900000, 175045040462672753250000⟩,
  ⟨3497348836648006033300, 175045040462676881890000, 9649909919074652897600000⟩,
  ⟨24978138848733466744000, 3081068327593843303400000, 737176145710159158590000⟩,
  ⟨24978138848733466744000, 6181755526695997815500000, 3081068327593843303400000⟩,
  ⟨24978138848733466744000, 737176145710159436140000, 6181755526695998925700000⟩,
  ⟨24978138848733466744000, 6181755526695997815500000, 737176145710159158590000⟩,
  ⟨24978138848733466744000, 3081068327593843303400000, 6181755526695997815500000⟩,
  ⟨24978138848733466744000, 737176145710158048360000, 3081068327593844968800000⟩,
  ⟨26012112555219308457000, 1454801146528607036500000, 1454801146528609256900000⟩,
  ⟨26012112555219308457000, 7090397706942782596300000, 1454801146528607591600000⟩,
  ⟨26012112555219308457000, 1454801146528609256900000, 7090397706942785927000000⟩,
  ⟨4628340994249561905800, 2196247131384356232600000, 27038822145435278087000⟩,
  ⟨4628340994249561905800, 7776714046470207808400000, 2196247131384356232600000⟩,
  ⟨4628340994249561905800, 27038822145436514077000, 7776714046470208918600000⟩,
  ⟨4628340994249561905800, 7776714046470207808400000, 27038822145435278087000⟩,
  ⟨4628340994249561905800, 2196247131384357342800000, 7776714046470208918600000⟩,
  ⟨4628340994249561905800, 27038822145433599742000, 2196247131384359285700000⟩,
  ⟨41410832313464760943000, 2734646071142814438600000, 2191582634460287892800000⟩,
  ⟨41410832313464760943000, 5073771294396898223800000, 2734646071142814993700000⟩,
  ⟨41410832313464760943000, 2191582634460287337700000, 5073771294396899334000000⟩,
  ⟨41410832313464760943000, 5073771294396898223800000, 2191582634460287892800000⟩,
  ⟨41410832313464760943000, 2734646071142813883400000, 5073771294396899334000000⟩,
  ⟨41410832313464760943000, 2191582634460285949900000, 2734646071142816103900000⟩,
  ⟨7684212329036554890400, 686830028555526772570000, 207228118815140395500000⟩,
  ⟨7684212329036554890400, 9105941852629332311500000, 686830028555526356240000⟩,
  ⟨7684212329036554890400, 207228118815142026140000, 9105941852629333421700000⟩,
  ⟨7684212329036554890400, 9105941852629332311500000, 207228118815140395500000⟩,
  ⟨7684212329036554890400, 686830028555528437910000, 9105941852629333421700000⟩,
  ⟨7684212329036554890400, 207228118815137932200000, 686830028555529964460000⟩,
  ⟨26113703694071867083000, 1830135998401794528200000, 1006217208920760913800000⟩,
  ⟨26113703694071867083000, 7163646792677444974400000, 1830135998401794805700000⟩,
  ⟨26113703694071867083000, 1006217208920760497500000, 7163646792677447194800000⟩,
  ⟨26113703694071867083000, 7163646792677444974400000, 1006217208920760913800000⟩,
  ⟨26113703694071867083000, 1830135998401794528200000, 7163646792677446084600000⟩,
  ⟨26113703694071867083000, 1006217208920759109700000, 1830135998401797858800000⟩,
  ⟨620233313265518054670, 30471742663604941409000, 30471742663607699619000⟩,
  ⟨620233313265518054670, 9939056514672787168200000, 30471742663604494718000⟩,
  ⟨620233313265518054670, 30471742663609191482000, 9939056514672788278400000⟩,
  ⟨23591963942099550798000, 2287994832299252712100000, 694898178335092570060000⟩,
  ⟨23591963942099550798000, 7017106989365653468800000, 2287994832299252712100000⟩,
  ⟨23591963942099550798000, 694898178335093263950000, 7017106989365656799500000⟩,
  ⟨23591963942099550798000, 7017106989365654579100000, 694898178335092570060000⟩,
  ⟨23591963942099550798000, 2287994832299252157000000, 7017106989365656799500000⟩,
  ⟨23591963942099550798000, 694898178335090765940000, 2287994832299255487700000⟩,
  ⟨12531911082572437348000, 587361601120219983810000, 587361601120222967530000⟩,
  ⟨12531911082572437348000, 8825276797759556979300000, 587361601120220053200000⟩,
  ⟨12531911082572437348000, 587361601120222620590000, 8825276797759559199700000⟩,
  ⟨18010585024764284336000, 1018827114869391287100000, 683773554225138580080000⟩,
  ⟨18010585024764284336000, 8297399330905469438900000, 1018827114869391287100000⟩,
  ⟨18010585024764284336000, 683773554225139412740000, 8297399330905471659400000⟩,
  ⟨18010585024764284336000, 8297399330905470549200000, 683773554225138580080000⟩,
  ⟨18010585024764284336000, 1018827114869392258500000, 8297399330905471659400000⟩,
  ⟨18010585024764284336000, 683773554225136359630000, 1018827114869394479000000⟩,
  ⟨11851452336966760218000, 2435636733958170541100000, 143204413633164825280000⟩,
  ⟨11851452336966760218000, 7421158852408664685600000, 2435636733958170818700000⟩,
  ⟨11851452336966760218000, 143204413633164495680000, 7421158852408666906100000⟩,
  ⟨11851452336966760218000, 7421158852408664685600000, 143204413633164825280000⟩,
  ⟨11851452336966760218000, 2435636733958171928900000, 7421158852408664685600000⟩,
  ⟨11851452336966760218000, 143204413633163524230000, 2435636733958173871800000⟩,
  ⟨18052449166878986684000, 2058877165179011925500000, 389678567422942698230000⟩,
  ⟨18052449166878986684000, 7551444267398045306900000, 2058877165179011925500000⟩,
  ⟨18052449166878986684000, 389678567422943600280000, 7551444267398046417100000⟩,
  ⟨18052449166878986684000, 7551444267398045306900000, 389678567422942698230000⟩,
  ⟨18052449166878986684000, 2058877165179012758100000, 7551444267398046417100000⟩,
  ⟨18052449166878986684000, 389678567422940963500000, 2058877165179014701000000⟩,
  ⟨32702272653727516676000, 2018695088876030774300000, 1493964619179441732900000⟩,
  ⟨32702272653727516676000, 6487340291944526660100000, 2018695088876031607000000⟩,
  ⟨32702272653727516676000, 1493964619179441455400000, 6487340291944528880600000⟩,
  ⟨32702272653727516676000, 6487340291944527770300000, 1493964619179441732900000⟩,
  ⟨32702272653727516676000, 2018695088876031884500000, 6487340291944528880600000⟩,
  ⟨32702272653727516676000, 1493964619179440345100000, 2018695088876033827400000⟩,
  ⟨20396107401563015604000, 1591160210105451722200000, 622282118189532995610000⟩,
  ⟨20396107401563015604000, 7786557671705014449500000, 1591160210105452277300000⟩,
  ⟨20396107401563015604000, 622282118189533273170000, 7786557671705016670000000⟩,
  ⟨20396107401563015604000, 7786557671705015559700000, 622282118189532995610000⟩,
  ⟨20396107401563015604000, 1591160210105452277300000, 7786557671705016670000000⟩,
  ⟨20396107401563015604000, 622282118189530913940000, 1591160210105454775300000⟩,
  ⟨11628194590529176890000, 1779476358555918125100000, 176192414704859877380000⟩,
  ⟨11628194590529176890000, 8044331226739221962800000, 1779476358555918402700000⟩,
  ⟨11628194590529176890000, 176192414704859912080000, 8044331226739224183200000⟩,
  ⟨11628194590529176890000, 8044331226739221962800000, 176192414704859877380000⟩,
  ⟨11628194590529176890000, 1779476358555918680300000, 8044331226739224183200000⟩,
  ⟨11628194590529176890000, 176192414704858246740000, 1779476358555921455800000⟩,
  ⟨5028720110416316042500, 1620367479496920837300000, 39477276652124552656000⟩,
  ⟨5028720110416316042500, 8340155243850955191200000, 1620367479496921114800000⟩,
  ⟨5028720110416316042500, 39477276652125081746000, 8340155243850956301400000⟩,
  ⟨5028720110416316042500, 8340155243850954081000000, 39477276652124552656000⟩,
  ⟨5028720110416316042500, 1620367479496920837300000, 8340155243850956301400000⟩,
  ⟨5028720110416316042500, 39477276652122583744000, 1620367479496924167900000⟩,
  ⟨5715808857058732534200, 2918549838585245970200000, 29311798861729105627000⟩,
  ⟨5715808857058732534200, 7052138362553024286700000, 2918549838585246525300000⟩,
  ⟨5715808857058732534200, 29311798861729188026000, 7052138362553027617400000⟩,
  ⟨5715808857058732534200, 7052138362553025396900000, 29311798861729105627000⟩,
  ⟨5715808857058732534200, 2918549838585245415100000, 7052138362553027617400000⟩,
  ⟨5715808857058732534200, 29311798861726690024000, 2918549838585248745700000⟩,
  ⟨5942306612541275795100, 3718786917495891519700000, 27779809824385629999000⟩,
  ⟨5942306612541275795100, 6253433272679722598800000, 3718786917495892074800000⟩,
  ⟨5942306612541275795100, 27779809824384771311000, 6253433272679725929400000⟩,
  ⟨5942306612541275795100, 6253433272679722598800000, 27779809824385629999000⟩,
  ⟨5942306612541275795100, 3718786917495891519700000, 6253433272679723709000000⟩,
  ⟨5942306612541275795100, 27779809824384216199000, 3718786917495893185000000⟩,
  ⟨14526094726054607307000, 1349693726524652803700000, 343221858358502412980000⟩,
  ⟨14526094726054607307000, 8307084415116845477200000, 1349693726524652803700000⟩,
  ⟨14526094726054607307000, 343221858358503384420000, 8307084415116845477200000⟩,
  ⟨14526094726054607307000, 8307084415116845477200000, 343221858358502412980000⟩,
  ⟨14526094726054607307000, 1349693726524654469000000, 8307084415116845477200000⟩,
  ⟨14526094726054607307000, 343221858358500053750000, 1349693726524655579300000⟩,
  ⟨8537751019578642200400, 373835575017464616380000, 373835575017467738880000⟩,
  ⟨8537751019578642200400, 9252328849965066881500000, 373835575017464477600000⟩,
  ⟨8537751019578642200400, 373835575017469334820000, 9252328849965067991700000⟩,
  ⟨44928047594024944286000, 2855047782912640275100000, 2855047782912641940500000⟩,
  ⟨44928047594024944286000, 4289904434174718339500000, 2855047782912641385300000⟩,
  ⟨44928047594024944286000, 2855047782912640275100000, 4289904434174719449800000⟩,
  ⟨31633575987932865438000, 2524534299064219444700000, 1087240393419248996000000⟩,
  ⟨31633575987932865438000, 6388225307516530726600000, 2524534299064219444700000⟩,
  ⟨31633575987932865438000, 1087240393419249273600000, 6388225307516532947000000⟩,
  ⟨31633575987932865438000, 6388225307516531836800000, 1087240393419248996000000⟩,
  ⟨31633575987932865438000, 2524534299064219444700000, 6388225307516532947000000⟩,
  ⟨31633575987932865438000, 1087240393419247330700000, 2524534299064221110100000⟩,
  ⟨39688521375602281091000, 4203335017700142173200000, 1593329964599715931100000⟩,
  ⟨39688521375602281091000, 4203335017700142728400000, 4203335017700143283500000⟩,
  ⟨39688521375602281091000, 1593329964599715098400000, 4203335017700143838600000⟩,
  ⟨13628431103600603669000, 3242351641083044966300000, 149491079080454249830000⟩,
  ⟨13628431103600603669000, 6608157279836500697100000, 3242351641083044966300000⟩,
  ⟨13628431103600603669000, 149491079080454336570000, 6608157279836502917500000⟩,
  ⟨13628431103600603669000, 6608157279836500697100000, 149491079080454249830000⟩,
  ⟨13628431103600603669000, 3242351641083044966300000, 6608157279836502917500000⟩,
  ⟨13628431103600603669000, 149491079080452671230000, 3242351641083047741900000⟩,
  ⟨38742765963337387480000, 2076894216538629212000000, 2076894216538631154900000⟩,
  ⟨38742765963337387480000, 5846211566922739910600000, 2076894216538630044700000⟩,
  ⟨38742765963337387480000, 2076894216538630044700000, 5846211566922742131100000⟩,
  ⟨15179487772672168189000, 4921962729553107651600000, 156074540893784263070000⟩,
  ⟨15179487772672168189000, 4921962729553107651600000, 4921962729553108761800000⟩,
  ⟨15179487772672168189000, 156074540893783586530000, 4921962729553109872100000⟩,
  ⟨22607957999025815772000, 4374161906466256799500000, 373240771592634676400000⟩,
  ⟨22607957999025815772000, 5252597321941108177200000, 4374161906466257909700000⟩,
  ⟨22607957999025815772000, 373240771592634468230000, 5252597321941110397600000⟩,
  ⟨22607957999025815772000, 5252597321941108177200000, 373240771592634676400000⟩,
  ⟨22607957999025815772000, 4374161906466256799500000, 5252597321941109287400000⟩,
  ⟨22607957999025815772000, 373240771592634190680000, 4374161906466259019900000⟩,
  ⟨6445871387147111180100, 4559988036612093176300000, 29632719316369520064000⟩,
  ⟨6445871387147111180100, 5410379244071537030400000, 4559988036612093731400000⟩,
  ⟨6445871387147111180100, 29632719316369238172000, 5410379244071539250900000⟩,
  ⟨6445871387147111180100, 5410379244071537030400000, 29632719316369520064000⟩,
  ⟨6445871387147111180100, 4559988036612093176300000, 5410379244071538140700000⟩,
  ⟨6445871387147111180100, 29632719316368960616000, 4559988036612095396700000⟩,
  ⟨4083419590863903293600, 754872857005682990070000, 42029781607735095320000⟩,
  ⟨4083419590863903293600, 9203097361386581853900000, 754872857005682434960000⟩,
  ⟨4083419590863903293600, 42029781607736405036000, 9203097361386584074300000⟩,
  ⟨4083419590863903293600, 9203097361386581853900000, 42029781607735095320000⟩,
  ⟨4083419590863903293600, 754872857005683406410000, 9203097361386584074300000⟩,
  ⟨4083419590863903293600, 42029781607732588644000, 754872857005686043190000⟩,
  ⟨34738896617761108772000, 3260541266529465853600000, 1142741873804544311400000⟩,
  ⟨34738896617761108772000, 5596716859665989973700000, 3260541266529466963900000⟩,
  ⟨34738896617761108772000, 1142741873804544172600000, 5596716859665991084000000⟩,
  ⟨34738896617761108772000, 5596716859665989973700000, 1142741873804544311400000⟩,
  ⟨34738896617761108772000, 3260541266529466963900000, 5596716859665989973700000⟩,
  ⟨34738896617761108772000, 1142741873804542784800000, 3260541266529468074100000⟩,
  ⟨35493089697451588906000, 4011995885054882027300000, 1128880853129215211500000⟩,
  ⟨35493089697451588906000, 4859123261815903038800000, 4011995885054882582400000⟩,
  ⟨35493089697451588906000, 1128880853129214378900000, 4859123261815905259200000⟩,
  ⟨35493089697451588906000, 4859123261815903038800000, 1128880853129215211500000⟩,
  ⟨35493089697451588906000, 4011995885054881472200000, 4859123261815904149000000⟩,
  ⟨35493089697451588906000, 1128880853129213823700000, 4011995885054884247700000⟩,
  ⟨38459601742889580958000, 2687606603412640016200000, 1601966778997558904500000⟩,
  ⟨38459601742889580958000, 5710426617589802189600000, 2687606603412640571300000⟩,
  ⟨38459601742889580958000, 1601966778997558349400000, 5710426617589803299800000⟩,
  ⟨38459601742889580958000, 5710426617589801079300000, 1601966778997558904500000⟩,
  ⟨38459601742889580958000, 2687606603412640571300000, 5710426617589802189600000⟩,
  ⟨38459601742889580958000, 1601966778997557516700000, 2687606603412641681500000⟩,
  ⟨14626095093620524509000, 4060147025738771731100000, 151551286402894190560000⟩,
  ⟨14626095093620524509000, 5788301687858334876300000, 4060147025738771731100000⟩,
  ⟨14626095093620524509000, 151551286402893947700000, 5788301687858335986500000⟩,
  ⟨14626095093620524509000, 5788301687858334876300000, 151551286402894190560000⟩,
  ⟨14626095093620524509000, 4060147025738772841300000, 5788301687858334876300000⟩,
  ⟨14626095093620524509000, 151551286402893115040000, 4060147025738774506600000⟩,
  ⟨49879968051912831895000, 3565655939830261189600000, 2868688120339477065600000⟩,
  ⟨49879968051912831895000, 3565655939830261189600000, 3565655939830262855000000⟩,
  ⟨49879968051912831895000, 2868688120339476510500000, 3565655939830262855000000⟩,
  ⟨30283484982428863358000, 3835103468343401544900000, 700421815004378944810000⟩,
  ⟨30283484982428863358000, 5464474716652220065400000, 3835103468343402100000000⟩,
  ⟨30283484982428863358000, 700421815004377834590000, 5464474716652222285900000⟩,
  ⟨30283484982428863358000, 5464474716652218955200000, 700421815004378944810000⟩,
  ⟨30283484982428863358000, 3835103468343402100000000, 5464474716652220065400000⟩,
  ⟨30283484982428863358000, 700421815004378389700000, 3835103468343403765300000⟩,
  ⟨1668528165594186814500, 164470646369431552910000, 34429885015808013235000⟩,
  ⟨1668528165594186814500, 9801099468614760112900000, 164470646369431518220000⟩,
  ⟨1668528165594186814500, 34429885015809236215000, 9801099468614761223200000⟩,
  ⟨1668528165594186814500, 9801099468614760112900000, 34429885015808013235000⟩,
  ⟨1668528165594186814500, 164470646369432871300000, 9801099468614761223200000⟩,
  ⟨1668528165594186814500, 34429885015804934101000, 164470646369435369310000⟩,
  ⟨22647344604744164276000, 3542977861626947500000000, 376676144786773081650000⟩,
  ⟨22647344604744164276000, 6080345993586279140800000, 3542977861626947500000000⟩,
  ⟨22647344604744164276000, 376676144786773914320000, 6080345993586280251000000⟩,
  ⟨22647344604744164276000, 6080345993586279140800000, 376676144786773081650000⟩,
  ⟨22647344604744164276000, 3542977861626948055100000, 6080345993586280251000000⟩,
  ⟨22647344604744164276000, 376676144786771971430000, 3542977861626949720500000⟩,
  ⟨42012687071598872612000, 3419951757983160090000000, 1659984266767156879700000⟩,
  ⟨42012687071598872612000, 4920063975249682197700000, 3419951757983161755300000⟩,
  ⟨42012687071598872612000, 1659984266767156047000000, 4920063975249684418100000⟩,
  ⟨42012687071598872612000, 4920063975249682752800000, 1659984266767156879700000⟩,
  ⟨42012687071598872612000, 3419951757983160645100000, 4920063975249683863000000⟩,
  ⟨42012687071598872612000, 1659984266767155491900000, 3419951757983162865500000⟩,
  ⟨9054859262017061864700, 1152888910792783799800000, 120325311111651837850000⟩,
  ⟨9054859262017061864700, 8726785778095563772500000, 1152888910792783522300000⟩,
  ⟨9054859262017061864700, 120325311111652566430000, 8726785778095565993000000⟩,
  ⟨9054859262017061864700, 8726785778095564882800000, 120325311111651837850000⟩,
  ⟨9054859262017061864700, 1152888910792784771300000, 8726785778095565993000000⟩,
  ⟨9054859262017061864700, 120325311111649513320000, 1152888910792786991700000⟩,
  ⟨1461428315914132820100, 1165281018124025430600000, 2982216815201293828900⟩,
  ⟨1461428315914132820100, 8831736765060773652900000, 1165281018124025291800000⟩,
  ⟨1461428315914132820100, 2982216815202165527400, 8831736765060774763100000⟩,
  ⟨1461428315914132820100, 8831736765060773652900000, 2982216815201293828900⟩,
  ⟨1461428315914132820100, 1165281018124026957100000, 8831736765060773652900000⟩,
  ⟨1461428315914132820100, 2982216815199528747700, 1165281018124028900000000⟩]

/-- `HardcodedQuadRule<kTria, 39>()`; /repo/lib/lf/quad/quad_rules_tria.cc:11426-12278. -/
def triaTab39 : List TabRow := [
  ⟨3912015164197819210400, 2382752085845570022600000, 43744824382612569960000⟩,
  ⟨3912015164197819210400, 7573503089771818075300000, 2382752085845570022600000⟩,
  ⟨3912015164197819210400, 43744824382612734759000, 7573503089771819185600000⟩,
  ⟨3912015164197819210400, 7573503089771818075300000, 43744824382612569960000⟩,
  ⟨3912015164197819210400, 2382752085845570855200000, 7573503089771818075300000⟩,
  ⟨3912015164197819210400, 43744824382610514313000, 2382752085845573075700000⟩,
  ⟨27129629394762283350000, 5022902013149184163900000, 2314370758890005874700000⟩,
  ⟨27129629394762283350000, 2662727227960811071700000, 5022902013149185274100000⟩,
  ⟨27129629394762283350000, 2314370758890004209400000, 2662727227960812737000000⟩,
  ⟨27129629394762283350000, 2662727227960810516500000, 2314370758890005874700000⟩,
  ⟨27129629394762283350000, 5022902013149184163900000, 2662727227960811626800000⟩,
  ⟨27129629394762283350000, 2314370758890004764500000, 5022902013149185274100000⟩,
  ⟨32167824916104555306000, 3506827341571582823400000, 2360994474365199213800000⟩,
  ⟨32167824916104555306000, 4132178184063218795400000, 3506827341571583378500000⟩,
  ⟨32167824916104555306000, 2360994474365198381200000, 4132178184063219905700000⟩,
  ⟨32167824916104555306000, 4132178184063218795400000, 2360994474365199213800000⟩,
  ⟨32167824916104555306000, 3506827341571582268300000, 4132178184063219350500000⟩,
  ⟨32167824916104555306000, 2360994474365198658700000, 3506827341571583933600000⟩,
  ⟨3822553188158347536700, 2778089177192840098000000, 26623397478917109130000⟩,
  ⟨3822553188158347536700, 7195287425328242836300000, 2778089177192840653100000⟩,
  ⟨3822553188158347536700, 26623397478918175985000, 7195287425328243946500000⟩,
  ⟨3822553188158347536700, 7195287425328241726100000, 26623397478917109130000⟩,
  ⟨3822553188158347536700, 2778089177192840098000000, 7195287425328243946500000⟩,
  ⟨3822553188158347536700, 26623397478915122871000, 2778089177192843428600000⟩,
  ⟨19002364888003285808000, 4724094821505566699200000, 551810356988866670960000⟩,
  ⟨19002364888003285808000, 4724094821505566144100000, 4724094821505567809400000⟩,
  ⟨19002364888003285808000, 551810356988866046460000, 4724094821505568919700000⟩,
  ⟨31297443405131917041000, 3212034826826167810400000, 2074396119349455058800000⟩,
  ⟨31297443405131917041000, 4713569053824376853300000, 3212034826826168365500000⟩,
  ⟨31297443405131917041000, 2074396119349454781200000, 4713569053824377963500000⟩,
  ⟨31297443405131917041000, 4713569053824376853300000, 2074396119349455058800000⟩,
  ⟨31297443405131917041000, 3212034826826167810400000, 4713569053824377408400000⟩,
  ⟨31297443405131917041000, 2074396119349453671000000, 3212034826826170030900000⟩,
  ⟨24045178700843020288000, 4575079686738242612500000, 849840626523514774960000⟩,
  ⟨24045178700843020288000, 4575079686738242612500000, 4575079686738243167600000⟩,
  ⟨24045178700843020288000, 849840626523514219850000, 4575079686738244833000000⟩,
  ⟨10810437034472729356000, 4574242168529820684600000, 119091524767886494660000⟩,
  ⟨10810437034472729356000, 5306666306702293445200000, 4574242168529821239700000⟩,
  ⟨10810437034472729356000, 119091524767885315050000, 5306666306702295665700000⟩,
  ⟨10810437034472729356000, 5306666306702292335000000, 119091524767886494660000⟩,
  ⟨10810437034472729356000, 4574242168529821239700000, 5306666306702293445200000⟩,
  ⟨10810437034472729356000, 119091524767885592610000, 4574242168529823460200000⟩,
  ⟨3454269891611398473800, 1910383428521846005400000, 21569623388998956752000⟩,
  ⟨3454269891611398473800, 8068046948089154790700000, 1910383428521846283000000⟩,
  ⟨3454269891611398473800, 21569623388998926394000, 8068046948089157011100000⟩,
  ⟨3454269891611398473800, 8068046948089154790700000, 21569623388998956752000⟩,
  ⟨3454269891611398473800, 1910383428521847393200000, 8068046948089154790700000⟩,
  ⟨3454269891611398473800, 21569623388997816171000, 1910383428521849058500000⟩,
  ⟨40394972726736696339000, 3538472919168832997400000, 2923054161662334005100000⟩,
  ⟨40394972726736696339000, 3538472919168832997400000, 3538472919168834662800000⟩,
  ⟨40394972726736696339000, 2923054161662332339800000, 3538472919168834662800000⟩,
  ⟨4192383409145850276300, 4991061498602989976400000, 17877002794020532828000⟩,
  ⟨4192383409145850276300, 4991061498602989976400000, 4991061498602990531600000⟩,
  ⟨4192383409145850276300, 17877002794019769549000, 4991061498602991641800000⟩,
  ⟨21905480428541070428000, 2063519407328363031200000, 1072574937516458382100000⟩,
  ⟨21905480428541070428000, 6863905655155179141900000, 2063519407328363031200000⟩,
  ⟨21905480428541070428000, 1072574937516458382100000, 6863905655155180252100000⟩,
  ⟨21905480428541070428000, 6863905655155178031600000, 1072574937516458382100000⟩,
  ⟨21905480428541070428000, 2063519407328363586300000, 6863905655155180252100000⟩,
  ⟨21905480428541070428000, 1072574937516456439200000, 2063519407328365251600000⟩,
  ⟨24488695353957600637000, 2612383827874719122200000, 1124383932914825440200000⟩,
  ⟨24488695353957600637000, 6263232239210454466200000, 2612383827874719677300000⟩,
  ⟨24488695353957600637000, 1124383932914825301500000, 6263232239210456686600000⟩,
  ⟨24488695353957600637000, 6263232239210455576400000, 1124383932914825440200000⟩,
  ⟨24488695353957600637000, 2612383827874719677300000, 6263232239210455576400000⟩,
  ⟨24488695353957600637000, 1124383932914823358600000, 2612383827874721897700000⟩,
  ⟨18544678106880900601000, 1133316581963653146800000, 1133316581963655783600000⟩,
  ⟨18544678106880900601000, 7733366836072691485900000, 1133316581963653285600000⟩,
  ⟨18544678106880900601000, 1133316581963656477500000, 7733366836072691485900000⟩,
  ⟨22154948254470264134000, 1593888996231203059000000, 1140903249967196858600000⟩,
  ⟨22154948254470264134000, 7265207753801600221200000, 1593888996231203059000000⟩,
  ⟨22154948254470264134000, 1140903249967197274900000, 7265207753801601331400000⟩,
  ⟨22154948254470264134000, 7265207753801599110900000, 1140903249967196858600000⟩,
  ⟨22154948254470264134000, 1593888996231204169300000, 7265207753801601331400000⟩,
  ⟨22154948254470264134000, 1140903249967194915700000, 1593888996231205557000000⟩,
  ⟨23499392143139703239000, 3988695132240668850300000, 619448419160624624840000⟩,
  ⟨23499392143139703239000, 5391856448598707496300000, 3988695132240669405400000⟩,
  ⟨23499392143139703239000, 619448419160624208500000, 5391856448598708606600000⟩,
  ⟨23499392143139703239000, 5391856448598707496300000, 619448419160624624840000⟩,
  ⟨23499392143139703239000, 3988695132240668850300000, 5391856448598707496300000⟩,
  ⟨23499392143139703239000, 619448419160623653390000, 3988695132240670515600000⟩,
  ⟨28474735794834348662000, 3122725792733608840600000, 1219628832252846184500000⟩,
  ⟨28474735794834348662000, 5657645375013544697400000, 3122725792733608840600000⟩,
  ⟨28474735794834348662000, 1219628832252845906900000, 5657645375013546917800000⟩,
  ⟨28474735794834348662000, 5657645375013545807600000, 1219628832252846184500000⟩,
  ⟨28474735794834348662000, 3122725792733608285400000, 5657645375013546917800000⟩,
  ⟨28474735794834348662000, 1219628832252844519200000, 3122725792733611061000000⟩,
  ⟨18616149943744121718000, 3644362623584763705200000, 386447963475402486710000⟩,
  ⟨18616149943744121718000, 5969189412939833738700000, 3644362623584764260300000⟩,
  ⟨18616149943744121718000, 386447963475402556100000, 5969189412939834849000000⟩,
  ⟨18616149943744121718000, 5969189412939833738700000, 386447963475402486710000⟩,
  ⟨18616149943744121718000, 3644362623584763705200000, 5969189412939834849000000⟩,
  ⟨18616149943744121718000, 386447963475401168320000, 3644362623584766480700000⟩,
  ⟨11355533110131220235000, 2305648342404431616600000, 172339717685665617940000⟩,
  ⟨11355533110131220235000, 7522011939909902800100000, 2305648342404431894200000⟩,
  ⟨11355533110131220235000, 172339717685666138360000, 7522011939909903910400000⟩,
  ⟨11355533110131220235000, 7522011939909902800100000, 172339717685665617940000⟩,
  ⟨11355533110131220235000, 2305648342404432171700000, 7522011939909903910400000⟩,
  ⟨11355533110131220235000, 172339717685663640360000, 2305648342404434392200000⟩,
  ⟨3343034558446736814900, 157787047228343108030000, 157787047228346265230000⟩,
  ⟨3343034558446736814900, 9684425905543310175700000, 157787047228343038640000⟩,
  ⟨3343034558446736814900, 157787047228347687700000, 9684425905543311285900000⟩,
  ⟨4750928275739189367800, 392682833818939619470000, 145623703030592060310000⟩,
  ⟨4750928275739189367800, 9461693463150467886500000, 392682833818939688860000⟩,
  ⟨4750928275739189367800, 145623703030594575660000, 9461693463150467886500000⟩,
  ⟨4750928275739189367800, 9461693463150467886500000, 145623703030592060310000⟩,
  ⟨4750928275739189367800, 392682833818941978700000, 9461693463150467886500000⟩,
  ⟨4750928275739189367800, 145623703030590204150000, 392682833818943505260000⟩,
  ⟨37165503152852734717000, 3582577335477227231700000, 1541611099973494991600000⟩,
  ⟨37165503152852734717000, 4875811564549278331900000, 3582577335477227786800000⟩,
  ⟨37165503152852734717000, 1541611099973494158900000, 4875811564549279997200000⟩,
  ⟨37165503152852734717000, 4875811564549278331900000, 1541611099973494991600000⟩,
  ⟨37165503152852734717000, 3582577335477227231700000, 4875811564549278887000000⟩,
  ⟨37165503152852734717000, 1541611099973493326200000, 3582577335477229452100000⟩,
  ⟨30932152668709396968000, 3805078825483125259900000, 1011401306789488086000000⟩,
  ⟨30932152668709396968000, 5183519867727387486800000, 3805078825483125815100000⟩,
  ⟨30932152668709396968000, 1011401306789487808400000, 5183519867727388597000000⟩,
  ⟨30932152668709396968000, 5183519867727387486800000, 1011401306789488086000000⟩,
  ⟨30932152668709396968000, 3805078825483125259900000, 5183519867727387486800000⟩,
  ⟨30932152668709396968000, 1011401306789487253300000, 3805078825483126925300000⟩,
  ⟨19187111408719256973000, 1318865755866089339900000, 732858166481221984250000⟩,
  ⟨19187111408719256973000, 7948276077652688398300000, 1318865755866089339900000⟩,
  ⟨19187111408719256973000, 732858166481222261800000, 7948276077652690618800000⟩,
  ⟨19187111408719256973000, 7948276077652688398300000, 732858166481221984250000⟩,
  ⟨19187111408719256973000, 1318865755866089339900000, 7948276077652690618800000⟩,
  ⟨19187111408719256973000, 732858166481220041360000, 1318865755866092115400000⟩,
  ⟨9479364828765365251800, 1726302550688860182300000, 135174633972146174960000⟩,
  ⟨9479364828765365251800, 8138522815338993243700000, 1726302550688859904800000⟩,
  ⟨9479364828765365251800, 135174633972147129060000, 8138522815338995464200000⟩,
  ⟨9479364828765365251800, 8138522815338993243700000, 135174633972146174960000⟩,
  ⟨9479364828765365251800, 1726302550688860737400000, 8138522815338995464200000⟩,
  ⟨9479364828765365251800, 135174633972144214720000, 1726302550688863235400000⟩,
  ⟨11579385843161762396000, 707756358900085702500000, 431486463812221776590000⟩,
  ⟨11579385843161762396000, 8860757177287692520900000, 707756358900085563720000⟩,
  ⟨11579385843161762396000, 431486463812223441930000, 8860757177287692520900000⟩,
  ⟨11579385843161762396000, 8860757177287692520900000, 431486463812221776590000⟩,
  ⟨11579385843161762396000, 707756358900086812720000, 8860757177287692520900000⟩,
  ⟨11579385843161762396000, 431486463812219486760000, 707756358900089171950000⟩,
  ⟨2441353811018984177000, 473824731204699201030000, 28483388383531748136000⟩,
  ⟨2441353811018984177000, 9497691880411768261500000, 473824731204698923470000⟩,
  ⟨2441353811018984177000, 28483388383533370103000, 9497691880411770482000000⟩,
  ⟨2441353811018984177000, 9497691880411769371800000, 28483388383531748136000⟩,
  ⟨2441353811018984177000, 473824731204700033690000, 9497691880411770482000000⟩,
  ⟨2441353811018984177000, 28483388383528963905000, 473824731204702739860000⟩,
  ⟨29017689598017796029000, 1640091847666055868700000, 1640091847666058366700000⟩,
  ⟨29017689598017796029000, 6719816304667884931900000, 1640091847666056701400000⟩,
  ⟨29017689598017796029000, 1640091847666059199400000, 6719816304667886042200000⟩,
  ⟨38496033161381348203000, 4084715607291339867200000, 1830568785417320265600000⟩,
  ⟨38496033161381348203000, 4084715607291340422300000, 4084715607291340977400000⟩,
  ⟨38496033161381348203000, 1830568785417319710400000, 4084715607291341532600000⟩,
  ⟨19666235037674464035000, 2971932482957448939900000, 403974541969813680240000⟩,
  ⟨19666235037674464035000, 6624092975072737310400000, 2971932482957448939900000⟩,
  ⟨19666235037674464035000, 403974541969814304740000, 6624092975072738420600000⟩,
  ⟨19666235037674464035000, 6624092975072737310400000, 403974541969813680240000⟩,
  ⟨19666235037674464035000, 2971932482957449495100000, 6624092975072738420600000⟩,
  ⟨19666235037674464035000, 403974541969812361850000, 2971932482957451715500000⟩,
  ⟨18684915937171393732000, 4437652399535982894500000, 310025483435276659470000⟩,
  ⟨18684915937171393732000, 5252322117028740411400000, 4437652399535983449600000⟩,
  ⟨18684915937171393732000, 310025483435276139050000, 5252322117028742631800000⟩,
  ⟨18684915937171393732000, 5252322117028740411400000, 310025483435276659470000⟩,
  ⟨18684915937171393732000, 4437652399535983449600000, 5252322117028741521600000⟩,
  ⟨18684915937171393732000, 310025483435275861500000, 4437652399535985670000000⟩,
  ⟨17653134351677795405000, 2298548902498229185000000, 392854639000807109860000⟩,
  ⟨17653134351677795405000, 7308596458500963288800000, 2298548902498229185000000⟩,
  ⟨17653134351677795405000, 392854639000807526190000, 7308596458500965509200000⟩,
  ⟨17653134351677795405000, 7308596458500963288800000, 392854639000807109860000⟩,
  ⟨17653134351677795405000, 2298548902498229185000000, 7308596458500965509200000⟩,
  ⟨17653134351677795405000, 392854639000805166970000, 2298548902498232238100000⟩,
  ⟨33882516090427534060000, 4365416551079566165300000, 1269166897840868224500000⟩,
  ⟨33882516090427534060000, 4365416551079566165300000, 4365416551079566720400000⟩,
  ⟨33882516090427534060000, 1269166897840867391800000, 4365416551079567830700000⟩,
  ⟨24366507453069496773000, 2515254271389071316600000, 715641320496676891500000⟩,
  ⟨24366507453069496773000, 6769104408114251514300000, 2515254271389071316600000⟩,
  ⟨24366507453069496773000, 715641320496676058840000, 6769104408114254845000000⟩,
  ⟨24366507453069496773000, 6769104408114252624500000, 715641320496676891500000⟩,
  ⟨24366507453069496773000, 2515254271389072982000000, 6769104408114251514300000⟩,
  ⟨24366507453069496773000, 715641320496675781280000, 2515254271389074092200000⟩,
  ⟨30348462109630333985000, 2206287919327524771300000, 1543945917807746648400000⟩,
  ⟨30348462109630333985000, 6249766162864728302800000, 2206287919327525326500000⟩,
  ⟨30348462109630333985000, 1543945917807746370800000, 6249766162864730523200000⟩,
  ⟨30348462109630333985000, 6249766162864728302800000, 1543945917807746648400000⟩,
  ⟨30348462109630333985000, 2206287919327524771300000, 6249766162864730523200000⟩,
  ⟨30348462109630333985000, 1543945917807744705500000, 2206287919327527269300000⟩,
  ⟨7960248160346278852700, 370326513393935824460000, 370326513393938530630000⟩,
  ⟨7960248160346278852700, 9259346973212125853100000, 370326513393935338740000⟩,
  ⟨7960248160346278852700, 370326513393939293910000, 9259346973212128073500000⟩,
  ⟨5508817903754198702000, 4164031820468177547100000, 27734733727750493677000⟩,
  ⟨5508817903754198702000, 5808233445804071859400000, 4164031820468178102200000⟩,
  ⟨5508817903754198702000, 27734733727750038312000, 5808233445804074079900000⟩,
  ⟨5508817903754198702000, 5808233445804071859400000, 27734733727750493677000⟩,
  ⟨5508817903754198702000, 4164031820468177547100000, 5808233445804072969700000⟩,
  ⟨5508817903754198702000, 27734733727749483201000, 4164031820468180322700000⟩,
  ⟨36545914077611486338000, 2780372435840275380200000, 1718458690352430429100000⟩,
  ⟨36545914077611486338000, 5501168873807293913100000, 2780372435840275935300000⟩,
  ⟨36545914077611486338000, 1718458690352430706700000, 5501168873807295023300000⟩,
  ⟨36545914077611486338000, 5501168873807293913100000, 1718458690352430429100000⟩,
  ⟨36545914077611486338000, 2780372435840275380200000, 5501168873807295023300000⟩,
  ⟨36545914077611486338000, 1718458690352428763800000, 2780372435840277600700000⟩,
  ⟨5868097638695024672800, 3420758322145084906500000, 32524102580493087673000⟩,
  ⟨5868097638695024672800, 6546717575274422218400000, 3420758322145085461600000⟩,
  ⟨5868097638695024672800, 32524102580493430281000, 6546717575274423328600000⟩,
  ⟨5868097638695024672800, 6546717575274422218400000, 32524102580493087673000⟩,
  ⟨5868097638695024672800, 3420758322145085461600000, 6546717575274423328600000⟩,
  ⟨5868097638695024672800, 32524102580491487391000, 3420758322145088237100000⟩,
  ⟨35627819170746337883000, 2117317495651855341300000, 2117317495651857006700000⟩,
  ⟨35627819170746337883000, 5765365008696287096900000, 2117317495651856174000000⟩,
  ⟨35627819170746337883000, 2117317495651856451600000, 5765365008696289317300000⟩,
  ⟨14138732102051028428000, 3766515227420242917200000, 160811994772276506400000⟩,
  ⟨14138732102051028428000, 6072672777807481825400000, 3766515227420242917200000⟩,
  ⟨14138732102051028428000, 160811994772275812520000, 6072672777807482935600000⟩,
  ⟨14138732102051028428000, 6072672777807480715100000, 160811994772276506400000⟩,
  ⟨14138732102051028428000, 3766515227420242917200000, 6072672777807481825400000⟩,
  ⟨14138732102051028428000, 160811994772275257400000, 3766515227420245137700000⟩,
  ⟨14059097790314568563000, 1122979167412355705500000, 436591987048875543320000⟩,
  ⟨14059097790314568563000, 8440428845538767710400000, 1122979167412355705500000⟩,
  ⟨14059097790314568563000, 436591987048876584150000, 8440428845538769930800000⟩,
  ⟨14059097790314568563000, 8440428845538768820600000, 436591987048875543320000⟩,
  ⟨14059097790314568563000, 1122979167412356815700000, 8440428845538769930800000⟩,
  ⟨14059097790314568563000, 436591987048872767760000, 1122979167412358897400000⟩,
  ⟨21888108864421993924000, 1861411558417737088800000, 682956923610527899540000⟩,
  ⟨21888108864421993924000, 7455631517971734734100000, 1861411558417737366300000⟩,
  ⟨21888108864421993924000, 682956923610528732200000, 7455631517971735844300000⟩,
  ⟨21888108864421993924000, 7455631517971735844300000, 682956923610527899540000⟩,
  ⟨21888108864421993924000, 1861411558417738199000000, 7455631517971734734100000⟩,
  ⟨21888108864421993924000, 682956923610525956650000, 1861411558417740419500000⟩,
  ⟨28898925874844636624000, 3217033982751871246100000, 747225031108798287690000⟩,
  ⟨28898925874844636624000, 6035740986139330743800000, 3217033982751871801200000⟩,
  ⟨28898925874844636624000, 747225031108797455030000, 6035740986139332964200000⟩,
  ⟨28898925874844636624000, 6035740986139330743800000, 747225031108798287690000⟩,
  ⟨28898925874844636624000, 3217033982751872356300000, 6035740986139330743800000⟩,
  ⟨28898925874844636624000, 747225031108796622360000, 3217033982751874021700000⟩,
  ⟨16608441575165413390000, 1660126851788667479100000, 361553743643339420280000⟩,
  ⟨16608441575165413390000, 7978319404567992823000000, 1660126851788667479100000⟩,
  ⟨16608441575165413390000, 361553743643340252940000, 7978319404567995043500000⟩,
  ⟨16608441575165413390000, 7978319404567993933200000, 361553743643339420280000⟩,
  ⟨16608441575165413390000, 1660126851788668034300000, 7978319404567995043500000⟩,
  ⟨16608441575165413390000, 361553743643336922280000, 1660126851788670254700000⟩,
  ⟨1617107192883666022400, 193576952354284764770000, 28330906992411765931000⟩,
  ⟨1617107192883666022400, 9778092140653303898600000, 193576952354284799460000⟩,
  ⟨1617107192883666022400, 28330906992413695811000, 9778092140653303898600000⟩,
  ⟨1617107192883666022400, 9778092140653303898600000, 28330906992411765931000⟩,
  ⟨1617107192883666022400, 193576952354285736210000, 9778092140653306119100000⟩,
  ⟨1617107192883666022400, 28330906992408942668000, 193576952354288026050000⟩,
  ⟨7799792558794567095100, 719904092251254096310000, 179498835307187742940000⟩,
  ⟨7799792558794567095100, 9100597072441558577100000, 719904092251253957540000⟩,
  ⟨7799792558794567095100, 179498835307188575610000, 9100597072441559687300000⟩,
  ⟨7799792558794567095100, 9100597072441557466900000, 179498835307187742940000⟩,
  ⟨7799792558794567095100, 719904092251255067760000, 9100597072441559687300000⟩,
  ⟨7799792558794567095100, 179498835307184897990000, 719904092251257426980000⟩,
  ⟨43643642549053788399000, 2869572884590685935000000, 2869572884590687600300000⟩,
  ⟨43643642549053788399000, 4260854230818625909500000, 2869572884590687045200000⟩,
  ⟨43643642549053788399000, 2869572884590687600300000, 4260854230818627019800000⟩,
  ⟨4342298286508415811400, 1333327168798978668000000, 31925398705718063645000⟩,
  ⟨4342298286508415811400, 8634747432495302188500000, 1333327168798978390500000⟩,
  ⟨4342298286508415811400, 31925398705718310843000, 8634747432495305519100000⟩,
  ⟨4342298286508415811400, 8634747432495303298700000, 31925398705718063645000⟩,
  ⟨4342298286508415811400, 1333327168798978390500000, 8634747432495305519100000⟩,
  ⟨4342298286508415811400, 31925398705715674064000, 1333327168798981998700000⟩,
  ⟨13758391282982628673000, 2994455291729938850600000, 162924574190147324060000⟩,
  ⟨13758391282982628673000, 6842620134079914207000000, 2994455291729938850600000⟩,
  ⟨13758391282982628673000, 162924574190148052640000, 6842620134079915317200000⟩,
  ⟨13758391282982628673000, 6842620134079914207000000, 162924574190147324060000⟩,
  ⟨13758391282982628673000, 2994455291729938295500000, 6842620134079915317200000⟩,
  ⟨13758391282982628673000, 162924574190145832200000, 2994455291729941626100000⟩,
  ⟨10252931221566240465000, 1171078851891532990300000, 179153991813487192820000⟩,
  ⟨10252931221566240465000, 8649767156294978498500000, 1171078851891532990300000⟩,
  ⟨10252931221566240465000, 179153991813488233650000, 8649767156294980718900000⟩,
  ⟨10252931221566240465000, 8649767156294979608700000, 179153991813487192820000⟩,
  ⟨10252931221566240465000, 1171078851891533823000000, 8649767156294980718900000⟩,
  ⟨10252931221566240465000, 179153991813484833600000, 1171078851891536182200000⟩,
  ⟨18538426840326511277000, 806765828829424935800000, 806765828829427850130000⟩,
  ⟨18538426840326511277000, 8386468342341146797700000, 806765828829424658240000⟩,
  ⟨18538426840326511277000, 806765828829428821580000, 8386468342341149018200000⟩,
  ⟨3920750628230165670200, 853676016562654599310000, 35672493041341763777000⟩,
  ⟨3920750628230165670200, 9110651490396003415700000, 853676016562654321750000⟩,
  ⟨3920750628230165670200, 35672493041343233955000, 9110651490396004526000000⟩,
  ⟨3920750628230165670200, 9110651490396004526000000, 35672493041341763777000⟩,
  ⟨3920750628230165670200, 853676016562655570750000, 9110651490396004526000000⟩,
  ⟨3920750628230165670200, 35672493041339209396000, 853676016562658068750000⟩,
  ⟨874538907766669241890, 36432199207298886570000, 36432199207301805242000⟩,
  ⟨874538907766669241890, 9927135601585398427800000, 36432199207298600341000⟩,
  ⟨874538907766669241890, 36432199207303006538000, 9927135601585400648300000⟩]

/-- `HardcodedQuadRule<kTria, 40>()`; /repo/lib/lf/quad/quad_rules_tria.cc:12282-13173. -/
def triaTab40 : List TabRow := [
  ⟨1887761839267846199300, 1671778383557104563600000, 15279490490132416163000⟩,
  ⟨1887761839267846199300, 8312942125952762495400000, 1671778383557104841200000⟩,
  ⟨1887761839267846199300, 15279490490133218472000, 8312942125952764715900000⟩,
  ⟨1887761839267846199300, 8312942125952763605700000, 15279490490132416163000⟩,
  ⟨1887761839267846199300, 1671778383557105396300000, 8312942125952764715900000⟩,
  ⟨1887761839267846199300, 15279490490130304137000, 1671778383557107894300000⟩,
  ⟨7758424849275167645500, 3714780994452374640600000, 149718224721410841230000⟩,
  ⟨7758424849275167645500, 6135500780826215194700000, 3714780994452374640600000⟩,
  ⟨7758424849275167645500, 149718224721410719800000, 6135500780826216304900000⟩,
  ⟨7758424849275167645500, 6135500780826214084500000, 149718224721410841230000⟩,
  ⟨7758424849275167645500, 3714780994452374640600000, 6135500780826215194700000⟩,
  ⟨7758424849275167645500, 149718224721409887130000, 3714780994452377416200000⟩,
  ⟨4322072803732963475000, 1590238847123736365400000, 68042587991277809698000⟩,
  ⟨4322072803732963475000, 8341718564884985642700000, 1590238847123736087900000⟩,
  ⟨4322072803732963475000, 68042587991278824511000, 8341718564884986753000000⟩,
  ⟨4322072803732963475000, 8341718564884985642700000, 68042587991277809698000⟩,
  ⟨4322072803732963475000, 1590238847123737753200000, 8341718564884986753000000⟩,
  ⟨4322072803732963475000, 68042587991275771397000, 1590238847123738863400000⟩,
  ⟨4985924659365827864600, 462179329282665363190000, 353139747015546109910000⟩,
  ⟨4985924659365827864600, 9184680923701787902400000, 462179329282665224410000⟩,
  ⟨4985924659365827864600, 353139747015547289520000, 9184680923701790122800000⟩,
  ⟨4985924659365827864600, 9184680923701789012600000, 353139747015546109910000⟩,
  ⟨4985924659365827864600, 462179329282665363190000, 9184680923701790122800000⟩,
  ⟨4985924659365827864600, 353139747015544236410000, 462179329282668763250000⟩,
  ⟨2045385156490231676300, 1148651673800806516400000, 15839864476046563654000⟩,
  ⟨2045385156490231676300, 8835508461723146078600000, 1148651673800806100000000⟩,
  ⟨2045385156490231676300, 15839864476048792774000, 8835508461723147188800000⟩,
  ⟨2045385156490231676300, 8835508461723147188800000, 15839864476046563654000⟩,
  ⟨2045385156490231676300, 1148651673800807904200000, 8835508461723147188800000⟩,
  ⟨2045385156490231676300, 15839864476044560049000, 1148651673800809708300000⟩,
  ⟨10218335800422136822000, 3342460081847144493000000, 215166720844818110110000⟩,
  ⟨10218335800422136822000, 6442373197308037813300000, 3342460081847145048100000⟩,
  ⟨10218335800422136822000, 215166720844818248890000, 6442373197308038923500000⟩,
  ⟨10218335800422136822000, 6442373197308037813300000, 215166720844818110110000⟩,
  ⟨10218335800422136822000, 3342460081847144493000000, 6442373197308038923500000⟩,
  ⟨10218335800422136822000, 215166720844817138670000, 3342460081847147268500000⟩,
  ⟨2063221663138109702500, 723711649483900210100000, 20252616925631201222000⟩,
  ⟨2063221663138109702500, 9256035733590468606000000, 723711649483900210100000⟩,
  ⟨2063221663138109702500, 20252616925632294098000, 9256035733590469716200000⟩,
  ⟨2063221663138109702500, 9256035733590468606000000, 20252616925631201222000⟩,
  ⟨2063221663138109702500, 723711649483900765210000, 9256035733590469716200000⟩,
  ⟨2063221663138109702500, 20252616925628477706000, 723711649483903401990000⟩,
  ⟨9573483771984154155600, 2236842466647886995500000, 153612037490868675450000⟩,
  ⟨9573483771984154155600, 7609545495861244068800000, 2236842466647887273100000⟩,
  ⟨9573483771984154155600, 153612037490868935660000, 7609545495861246289200000⟩,
  ⟨9573483771984154155600, 7609545495861244068800000, 153612037490868675450000⟩,
  ⟨9573483771984154155600, 2236842466647887550700000, 7609545495861246289200000⟩,
  ⟨9573483771984154155600, 153612037490866853990000, 2236842466647890048700000⟩,
  ⟨5820015679949702442500, 1111290169905849445400000, 101659439479149828200000⟩,
  ⟨5820015679949702442500, 8787050390614999928500000, 1111290169905849167800000⟩,
  ⟨5820015679949702442500, 101659439479150903730000, 8787050390615002148900000⟩,
  ⟨5820015679949702442500, 8787050390615001038700000, 101659439479149828200000⟩,
  ⟨5820015679949702442500, 1111290169905849722900000, 8787050390615003259100000⟩,
  ⟨5820015679949702442500, 101659439479147156730000, 1111290169905852776000000⟩,
  ⟨14593368553261849754000, 2764445418077908778200000, 300138537838292723810000⟩,
  ⟨14593368553261849754000, 6935416044083798636800000, 2764445418077909333300000⟩,
  ⟨14593368553261849754000, 300138537838292585040000, 6935416044083800857200000⟩,
  ⟨14593368553261849754000, 6935416044083798636800000, 300138537838292723810000⟩,
  ⟨14593368553261849754000, 2764445418077908223100000, 6935416044083800857200000⟩,
  ⟨14593368553261849754000, 300138537838290642150000, 2764445418077911553700000⟩,
  ⟨9711690861611766345200, 1692633554656757799400000, 189700426400215629850000⟩,
  ⟨9711690861611766345200, 8117666018943027195200000, 1692633554656757521900000⟩,
  ⟨9711690861611766345200, 189700426400216670690000, 8117666018943028305400000⟩,
  ⟨9711690861611766345200, 8117666018943026085000000, 189700426400215629850000⟩,
  ⟨9711690861611766345200, 1692633554656758354500000, 8117666018943028305400000⟩,
  ⟨9711690861611766345200, 189700426400213062460000, 1692633554656761130100000⟩,
  ⟨10218580321164907280000, 1196509552487583089000000, 267407842221269662080000⟩,
  ⟨10218580321164907280000, 8536082605291146485600000, 1196509552487583227800000⟩,
  ⟨10218580321164907280000, 267407842221271119240000, 8536082605291147595800000⟩,
  ⟨10218580321164907280000, 8536082605291146485600000, 267407842221269662080000⟩,
  ⟨10218580321164907280000, 1196509552487583505400000, 8536082605291148706100000⟩,
  ⟨10218580321164907280000, 267407842221267441630000, 1196509552487586419700000⟩,
  ⟨2280894292174443871500, 2830190971292686485900000, 8538186935375223366200⟩,
  ⟨2280894292174443871500, 7161270841771937290000000, 2830190971292687041000000⟩,
  ⟨2280894292174443871500, 8538186935375668973300, 7161270841771939510400000⟩,
  ⟨2280894292174443871500, 7161270841771938400200000, 8538186935375223366200⟩,
  ⟨2280894292174443871500, 2830190971292687041000000, 7161270841771939510400000⟩,
  ⟨2280894292174443871500, 8538186935374003638800, 2830190971292689816600000⟩,
  ⟨5590763253492607009300, 704045501511467719520000, 122584700439817353980000⟩,
  ⟨5590763253492607009300, 9173369798048714995900000, 704045501511467580750000⟩,
  ⟨5590763253492607009300, 122584700439817839700000, 9173369798048717216300000⟩,
  ⟨5590763253492607009300, 9173369798048714995900000, 122584700439817353980000⟩,
  ⟨5590763253492607009300, 704045501511468274640000, 9173369798048717216300000⟩,
  ⟨5590763253492607009300, 122584700439814578420000, 704045501511470911420000⟩,
  ⟨15182362058061848759000, 2164720987514121008900000, 371700471134970150680000⟩,
  ⟨15182362058061848759000, 7463578541350908146500000, 2164720987514121286500000⟩,
  ⟨15182362058061848759000, 371700471134970844570000, 7463578541350910367000000⟩,
  ⟨15182362058061848759000, 7463578541350909256700000, 371700471134970150680000⟩,
  ⟨15182362058061848759000, 2164720987514121564000000, 7463578541350910367000000⟩,
  ⟨15182362058061848759000, 371700471134968485340000, 2164720987514124062000000⟩,
  ⟨9700928395557009828100, 769268815632590530210000, 321942006634704513960000⟩,
  ⟨9700928395557009828100, 8908789177732704400700000, 769268815632590530210000⟩,
  ⟨9700928395557009828100, 321942006634705624180000, 8908789177732705510900000⟩,
  ⟨9700928395557009828100, 8908789177732705510900000, 321942006634704513960000⟩,
  ⟨9700928395557009828100, 769268815632590530210000, 8908789177732706621200000⟩,
  ⟨9700928395557009828100, 321942006634702640460000, 769268815632593722100000⟩,
  ⟨9574617421964763154500, 4292227320385512690000000, 89321527113154410710000⟩,
  ⟨9574617421964763154500, 5618451152501333645300000, 4292227320385513245100000⟩,
  ⟨9574617421964763154500, 89321527113153664779000, 5618451152501335865700000⟩,
  ⟨9574617421964763154500, 5618451152501332535000000, 89321527113154410710000⟩,
  ⟨9574617421964763154500, 4292227320385513245100000, 5618451152501333645300000⟩,
  ⟨9574617421964763154500, 89321527113153387223000, 4292227320385514910400000⟩,
  ⟨3128033098374252544500, 157037453637930216050000, 157037453637933026310000⟩,
  ⟨3128033098374252544500, 9685925092724136931100000, 157037453637929834420000⟩,
  ⟨3128033098374252544500, 157037453637934865110000, 9685925092724136931100000⟩,
  ⟨42972644794933992710000, 2938899628974430688900000, 2938899628974431244000000⟩,
  ⟨42972644794933992710000, 4122200742051137512000000, 2938899628974431244000000⟩,
  ⟨42972644794933992710000, 2938899628974430688900000, 4122200742051139177300000⟩,
  ⟨42996661707809958469000, 3701028684237416266400000, 2597942631525167467300000⟩,
  ⟨42996661707809958469000, 3701028684237416266400000, 3701028684237417376600000⟩,
  ⟨42996661707809958469000, 2597942631525166357100000, 3701028684237417931700000⟩,
  ⟨41160670281137849008000, 3251479248852048309400000, 2240452152274997332800000⟩,
  ⟨41160670281137849008000, 4508068598872954080300000, 3251479248852049419600000⟩,
  ⟨41160670281137849008000, 2240452152274996777700000, 4508068598872955745600000⟩,
  ⟨41160670281137849008000, 4508068598872954635400000, 2240452152274997332800000⟩,
  ⟨41160670281137849008000, 3251479248852048309400000, 4508068598872955745600000⟩,
  ⟨41160670281137849008000, 2240452152274996222600000, 3251479248852049974700000⟩,
  ⟨37697602429350926534000, 2782727102869363422500000, 1876262169906756649400000⟩,
  ⟨37697602429350926534000, 5341010727223879373000000, 2782727102869363977600000⟩,
  ⟨37697602429350926534000, 1876262169906756094300000, 5341010727223881593400000⟩,
  ⟨37697602429350926534000, 5341010727223879373000000, 1876262169906756649400000⟩,
  ⟨37697602429350926534000, 2782727102869362867400000, 5341010727223881593400000⟩,
  ⟨37697602429350926534000, 1876262169906754429000000, 2782727102869365642900000⟩,
  ⟨9275873124363389612600, 2852102535187100440500000, 97585213238681137865000⟩,
  ⟨9275873124363389612600, 7050312251574218924700000, 2852102535187100440500000⟩,
  ⟨9275873124363389612600, 97585213238681745018000, 7050312251574220034900000⟩,
  ⟨9275873124363389612600, 7050312251574218924700000, 97585213238681137865000⟩,
  ⟨9275873124363389612600, 2852102535187099885400000, 7050312251574220034900000⟩,
  ⟨9275873124363389612600, 97585213238679524572000, 2852102535187103216100000⟩,
  ⟨22024106870840291263000, 2727256318298310056000000, 587062906216736027360000⟩,
  ⟨22024106870840291263000, 6685680775484954541100000, 2727256318298310611100000⟩,
  ⟨22024106870840291263000, 587062906216735957980000, 6685680775484955651300000⟩,
  ⟨22024106870840291263000, 6685680775484953430900000, 587062906216736027360000⟩,
  ⟨22024106870840291263000, 2727256318298310611100000, 6685680775484955651300000⟩,
  ⟨22024106870840291263000, 587062906216734570200000, 2727256318298312831600000⟩,
  ⟨19036025030929458902000, 4154695947712394033000000, 307419996861602630440000⟩,
  ⟨19036025030929458902000, 5537884055426003371300000, 4154695947712395143200000⟩,
  ⟨19036025030929458902000, 307419996861602595750000, 5537884055426004481500000⟩,
  ⟨19036025030929458902000, 5537884055426003371300000, 307419996861602630440000⟩,
  ⟨19036025030929458902000, 4154695947712394588100000, 5537884055426003371300000⟩,
  ⟨19036025030929458902000, 307419996861602040640000, 4154695947712396808500000⟩,
  ⟨4847222895272696569500, 2205774465337091150300000, 32567536371101669587000⟩,
  ⟨4847222895272696569500, 7761657998291806581600000, 2205774465337091150300000⟩,
  ⟨4847222895272696569500, 32567536371101435400000, 7761657998291809912300000⟩,
  ⟨4847222895272696569500, 7761657998291807691900000, 32567536371101669587000⟩,
  ⟨4847222895272696569500, 2205774465337090872700000, 7761657998291809912300000⟩,
  ⟨4847222895272696569500, 32567536371099076176000, 2205774465337093925800000⟩,
  ⟨21120401667403866132000, 3428856203943587144200000, 451876229604891294090000⟩,
  ⟨21120401667403866132000, 6119267566451520590200000, 3428856203943588254500000⟩,
  ⟨21120401667403866132000, 451876229604891155310000, 6119267566451522810700000⟩,
  ⟨21120401667403866132000, 6119267566451521700400000, 451876229604891294090000⟩,
  ⟨21120401667403866132000, 3428856203943588254500000, 6119267566451521700400000⟩,
  ⟨21120401667403866132000, 451876229604890045090000, 3428856203943589919800000⟩,
  ⟨33096627764702081162000, 2315038606116802677400000, 1508185102240567621000000⟩,
  ⟨33096627764702081162000, 6176776291642629424000000, 2315038606116802955000000⟩,
  ⟨33096627764702081162000, 1508185102240567343500000, 6176776291642631644400000⟩,
  ⟨33096627764702081162000, 6176776291642630534200000, 1508185102240567621000000⟩,
  ⟨33096627764702081162000, 2315038606116803232600000, 6176776291642630534200000⟩,
  ⟨33096627764702081162000, 1508185102240565955700000, 2315038606116805453000000⟩,
  ⟨5007036444134178301500, 381017129649182106910000, 166736740374798728110000⟩,
  ⟨5007036444134178301500, 9452246129976018540500000, 381017129649182523240000⟩,
  ⟨5007036444134178301500, 166736740374801017950000, 9452246129976018540500000⟩,
  ⟨5007036444134178301500, 9452246129976019650700000, 166736740374798728110000⟩,
  ⟨5007036444134178301500, 381017129649182106910000, 9452246129976021871100000⟩,
  ⟨5007036444134178301500, 166736740374796160720000, 381017129649185715130000⟩,
  ⟨37781555372607433275000, 3528911085101676947700000, 1621052421455440040200000⟩,
  ⟨37781555372607433275000, 4850036493442883012200000, 3528911085101677502800000⟩,
  ⟨37781555372607433275000, 1621052421455438930000000, 4850036493442885232600000⟩,
  ⟨37781555372607433275000, 4850036493442883012200000, 1621052421455440040200000⟩,
  ⟨37781555372607433275000, 3528911085101676947700000, 4850036493442883567300000⟩,
  ⟨37781555372607433275000, 1621052421455438652400000, 3528911085101678613000000⟩,
  ⟨26493525219968053729000, 4000760699195810565800000, 645258600999303599810000⟩,
  ⟨26493525219968053729000, 5353980699804885556900000, 4000760699195811120900000⟩,
  ⟨26493525219968053729000, 645258600999303322250000, 5353980699804887777300000⟩,
  ⟨26493525219968053729000, 5353980699804886667100000, 645258600999303599810000⟩,
  ⟨26493525219968053729000, 4000760699195810565800000, 5353980699804886667100000⟩,
  ⟨26493525219968053729000, 645258600999302489590000, 4000760699195812786200000⟩,
  ⟨27773448980642073680000, 1877843415465375864800000, 1143796954685691175100000⟩,
  ⟨27773448980642073680000, 6978359629848932543800000, 1877843415465376142300000⟩,
  ⟨27773448980642073680000, 1143796954685691313900000, 6978359629848934764200000⟩,
  ⟨27773448980642073680000, 6978359629848932543800000, 1143796954685691175100000⟩,
  ⟨27773448980642073680000, 1877843415465376697400000, 6978359629848933654000000⟩,
  ⟨27773448980642073680000, 1143796954685689093400000, 1877843415465378917900000⟩,
  ⟨22529922804747203741000, 2073769376903411565400000, 695719958527820786510000⟩,
  ⟨22529922804747203741000, 7230510664568767786900000, 2073769376903411842900000⟩,
  ⟨22529922804747203741000, 695719958527820647730000, 7230510664568770007300000⟩,
  ⟨22529922804747203741000, 7230510664568767786900000, 695719958527820786510000⟩,
  ⟨22529922804747203741000, 2073769376903411565400000, 7230510664568770007300000⟩,
  ⟨22529922804747203741000, 695719958527819259950000, 2073769376903414341000000⟩,
  ⟨15565675694601433399000, 1078038302263754633100000, 560343597005426088950000⟩,
  ⟨15565675694601433399000, 8361618100730818792200000, 1078038302263754771900000⟩,
  ⟨15565675694601433399000, 560343597005426574680000, 8361618100730821012700000⟩,
  ⟨15565675694601433399000, 8361618100730818792200000, 560343597005426088950000⟩,
  ⟨15565675694601433399000, 1078038302263755743300000, 8361618100730819902500000⟩,
  ⟨15565675694601433399000, 560343597005424076670000, 1078038302263757963800000⟩,
  ⟨21949191081013417169000, 1479014660731260699700000, 815896657841670980280000⟩,
  ⟨21949191081013417169000, 7705088681427068042500000, 1479014660731260977200000⟩,
  ⟨21949191081013417169000, 815896657841671535390000, 7705088681427070262900000⟩,
  ⟨21949191081013417169000, 7705088681427068042500000, 815896657841670980280000⟩,
  ⟨21949191081013417169000, 1479014660731260422100000, 7705088681427070262900000⟩,
  ⟨21949191081013417169000, 815896657841669037390000, 1479014660731263197700000⟩,
  ⟨16192761860414576353000, 1600426684113587794100000, 446292737712247408740000⟩,
  ⟨16192761860414576353000, 7953280578174164450200000, 1600426684113588071700000⟩,
  ⟨16192761860414576353000, 446292737712248310800000, 7953280578174166670600000⟩,
  ⟨16192761860414576353000, 7953280578174164450200000, 446292737712247408740000⟩,
  ⟨16192761860414576353000, 1600426684113588349200000, 7953280578174166670600000⟩,
  ⟨16192761860414576353000, 446292737712245396460000, 1600426684113590847200000⟩,
  ⟨32871490558047593115000, 3778766696887720377700000, 1087918765992173797400000⟩,
  ⟨32871490558047593115000, 5133314537120106102500000, 3778766696887721487900000⟩,
  ⟨32871490558047593115000, 1087918765992172964700000, 5133314537120108322900000⟩,
  ⟨32871490558047593115000, 5133314537120106102500000, 1087918765992173797400000⟩,
  ⟨32871490558047593115000, 3778766696887720377700000, 5133314537120107212700000⟩,
  ⟨32871490558047593115000, 1087918765992172687200000, 3778766696887722598100000⟩,
  ⟨40195677996607160481000, 2526963148522066715500000, 2526963148522068380900000⟩,
  ⟨40195677996607160481000, 4946073702955864348500000, 2526963148522067270600000⟩,
  ⟨40195677996607160481000, 2526963148522067825800000, 4946073702955866013800000⟩,
  ⟨2309687901873269633900, 392233696648084315120000, 32061485845241871097000⟩,
  ⟨2309687901873269633900, 9575704817506673904900000, 392233696648084384510000⟩,
  ⟨2309687901873269633900, 32061485845243931081000, 9575704817506673904900000⟩,
  ⟨2309687901873269633900, 9575704817506673904900000, 32061485845241871097000⟩,
  ⟨2309687901873269633900, 392233696648085494730000, 9575704817506673904900000⟩,
  ⟨2309687901873269633900, 32061485845239802439000, 392233696648088200900000⟩,
  ⟨28101649311348107264000, 3243044450771381259600000, 829765480589191445350000⟩,
  ⟨28101649311348107264000, 5927190068639427433800000, 3243044450771381814700000⟩,
  ⟨28101649311348107264000, 829765480589190751460000, 5927190068639429654200000⟩,
  ⟨28101649311348107264000, 5927190068639427433800000, 829765480589191445350000⟩,
  ⟨28101649311348107264000, 3243044450771381259600000, 5927190068639428544000000⟩,
  ⟨28101649311348107264000, 829765480589189918790000, 3243044450771383480100000⟩,
  ⟨36059117974544304536000, 2105771295148042010500000, 2105771295148043953400000⟩,
  ⟨36059117974544304536000, 5788457409703914313700000, 2105771295148042843200000⟩,
  ⟨36059117974544304536000, 2105771295148042843200000, 5788457409703916534100000⟩,
  ⟨614819425666627037770, 30575106285418403654000, 30575106285421539166000⟩,
  ⟨614819425666627037770, 9938849787429160365100000, 30575106285418334265000⟩,
  ⟨614819425666627037770, 30575106285423148123000, 9938849787429160365100000⟩,
  ⟨40334024837259483537000, 4032922222742628126600000, 1934155554514744024300000⟩,
  ⟨40334024837259483537000, 4032922222742627571500000, 4032922222742629236900000⟩,
  ⟨40334024837259483537000, 1934155554514743191600000, 4032922222742629792000000⟩,
  ⟨23394881142264544946000, 4767516468002928609100000, 464967063994142434940000⟩,
  ⟨23394881142264544946000, 4767516468002928053900000, 4767516468002929719300000⟩,
  ⟨23394881142264544946000, 464967063994141671660000, 4767516468002931384600000⟩,
  ⟨6163847784648690498700, 3509848476225047031500000, 35207350099882481730000⟩,
  ⟨6163847784648690498700, 6454944173675070118200000, 3509848476225047586600000⟩,
  ⟨6163847784648690498700, 35207350099881740135000, 6454944173675073448800000⟩,
  ⟨6163847784648690498700, 6454944173675071228400000, 35207350099882481730000⟩,
  ⟨6163847784648690498700, 3509848476225048141700000, 6454944173675070118200000⟩,
  ⟨6163847784648690498700, 35207350099881185024000, 3509848476225050362100000⟩,
  ⟨13586492859623854664000, 648562451597025496630000, 648562451597028133410000⟩,
  ⟨13586492859623854664000, 8702875096805946508700000, 648562451597025357850000⟩,
  ⟨13586492859623854664000, 648562451597029521190000, 8702875096805947619000000⟩,
  ⟨31199710152651680649000, 1688963797829617363700000, 1688963797829619861700000⟩,
  ⟨31199710152651680649000, 6622072404340761941900000, 1688963797829618196400000⟩,
  ⟨31199710152651680649000, 1688963797829620694400000, 6622072404340763052100000⟩,
  ⟨43927422264315495529000, 3333333333333332593200000, 3333333333333334258500000⟩,
  ⟨2245051190980730439900, 4208708276256936664500000, 5982947286367775157500⟩,
  ⟨2245051190980730439900, 5785308776456696833200000, 4208708276256937219600000⟩,
  ⟨2245051190980730439900, 5982947286367057415600, 5785308776456697943400000⟩,
  ⟨2245051190980730439900, 5785308776456695723000000, 5982947286367775157500⟩,
  ⟨2245051190980730439900, 4208708276256936664500000, 5785308776456695723000000⟩,
  ⟨2245051190980730439900, 5982947286366502304100, 4208708276256939440100000⟩,
  ⟨19454546898024754464000, 962980341591576360920000, 962980341591578858920000⟩,
  ⟨19454546898024754464000, 8074039316816844502600000, 962980341591576222140000⟩,
  ⟨19454546898024754464000, 962980341591578858920000, 8074039316816846723100000⟩,
  ⟨28440916326783667080000, 2526560385602646952000000, 996837194601994935890000⟩,
  ⟨28440916326783667080000, 6476602419795358667200000, 2526560385602646952000000⟩,
  ⟨28440916326783667080000, 996837194601994935890000, 6476602419795359777400000⟩,
  ⟨28440916326783667080000, 6476602419795358667200000, 996837194601994935890000⟩,
  ⟨28440916326783667080000, 2526560385602646952000000, 6476602419795359777400000⟩,
  ⟨28440916326783667080000, 996837194601993548120000, 2526560385602649172500000⟩,
  ⟨15144845531386305713000, 4907015691302039628300000, 185968617395921055610000⟩,
  ⟨15144845531386305713000, 4907015691302039628300000, 4907015691302040183400000⟩,
  ⟨15144845531386305713000, 185968617395920465810000, 4907015691302041848800000⟩,
  ⟨6025140311277585314400, 4984645792365975935900000, 30708415268047763863000⟩,
  ⟨6025140311277585314400, 4984645792365976491000000, 4984645792365977046100000⟩,
  ⟨6025140311277585314400, 30708415268046740376000, 4984645792365978711500000⟩,
  ⟨33739544480611218143000, 3016703335605275260200000, 1308239143750486721500000⟩,
  ⟨33739544480611218143000, 5675057520644237740700000, 3016703335605276370400000⟩,
  ⟨33739544480611218143000, 1308239143750485888900000, 5675057520644239961200000⟩,
  ⟨33739544480611218143000, 5675057520644237740700000, 1308239143750486721500000⟩,
  ⟨33739544480611218143000, 3016703335605275815300000, 5675057520644238850900000⟩,
  ⟨33739544480611218143000, 1308239143750485056200000, 3016703335605278035700000⟩,
  ⟨36124428674794420088000, 4322719776068063568500000, 1354560447863873140500000⟩,
  ⟨36124428674794420088000, 4322719776068063568500000, 4322719776068064678800000⟩,
  ⟨36124428674794420088000, 1354560447863872585400000, 4322719776068065233900000⟩,
  ⟨25681958630702152353000, 1302416069902091466700000, 1302416069902093964700000⟩,
  ⟨25681958630702152353000, 7395167860195813736000000, 1302416069902091744200000⟩,
  ⟨25681958630702152353000, 1302416069902094242200000, 7395167860195815956500000⟩,
  ⟨30422269377476307203000, 4568717371543227767600000, 862565256913544325950000⟩,
  ⟨30422269377476307203000, 4568717371543227767600000, 4568717371543228322700000⟩,
  ⟨30422269377476307203000, 862565256913543632060000, 4568717371543229988100000⟩,
  ⟨1392803125243165739700, 160613879667907411000000, 29955877400127412652000⟩,
  ⟨1392803125243165739700, 9809430242931964638600000, 160613879667907133440000⟩,
  ⟨1392803125243165739700, 29955877400129060639000, 9809430242931965748800000⟩,
  ⟨1392803125243165739700, 9809430242931965748800000, 29955877400127412652000⟩,
  ⟨1392803125243165739700, 160613879667908521220000, 9809430242931965748800000⟩,
  ⟨1392803125243165739700, 29955877400124793219000, 160613879667910949830000⟩]

end Verif
