import Verif.Model.TriaTabBase

/-! Generated by tools/quad_tables.py from /repo/lib/lf/quad/quad_rules_tria.cc. -/

namespace Verif

/-- `HardcodedQuadRule<kTria, 43>()`; /repo/lib/lf/quad/quad_rules_tria.cc:15096-16119. -/
def triaTab43 : List TabRow := [
  ⟨15399827845908164309000, 4117801708599337917600000, 1764396582801323887200000⟩,
  ⟨15399827845908164309000, 4117801708599338472700000, 4117801708599339027800000⟩,
  ⟨15399827845908164309000, 1764396582801323054600000, 4117801708599340138100000⟩,
  ⟨12436741101232418570000, 4755758670991314662800000, 488482658017371021430000⟩,
  ⟨12436741101232418570000, 4755758670991314662800000, 4755758670991315217900000⟩,
  ⟨12436741101232418570000, 488482658017370119370000, 4755758670991316883200000⟩,
  ⟨19563191704087845059000, 2297394365272492355900000, 1454537953878325962100000⟩,
  ⟨19563191704087845059000, 6248067680849180849400000, 2297394365272492633400000⟩,
  ⟨19563191704087845059000, 1454537953878326517200000, 6248067680849183069800000⟩,
  ⟨19563191704087845059000, 6248067680849181959600000, 1454537953878325962100000⟩,
  ⟨19563191704087845059000, 2297394365272492633400000, 6248067680849183069800000⟩,
  ⟨19563191704087845059000, 1454537953878324574300000, 2297394365272494298800000⟩,
  ⟨3043078610903900442200, 4991798367344779663300000, 16403265310440135610000⟩,
  ⟨3043078610903900442200, 4991798367344780218400000, 4991798367344780773500000⟩,
  ⟨3043078610903900442200, 16403265310439285596000, 4991798367344782438900000⟩,
  ⟨29390411668795777406000, 2962479881688698246700000, 2962479881688699912000000⟩,
  ⟨29390411668795777406000, 4075040236622601286200000, 2962479881688699912000000⟩,
  ⟨29390411668795777406000, 2962479881688698246700000, 4075040236622603506700000⟩,
  ⟨13287798860385602144000, 3605580760887838187600000, 324154748417785493200000⟩,
  ⟨13287798860385602144000, 6070264490694377013100000, 3605580760887838742700000⟩,
  ⟨13287798860385602144000, 324154748417785354420000, 6070264490694378123300000⟩,
  ⟨13287798860385602144000, 6070264490694375902900000, 324154748417785493200000⟩,
  ⟨13287798860385602144000, 3605580760887838742700000, 6070264490694377013100000⟩,
  ⟨13287798860385602144000, 324154748417784244200000, 3605580760887840963100000⟩,
  ⟨5201929288081813497100, 959172276669436746350000, 124129082244383796150000⟩,
  ⟨5201929288081813497100, 8916698641086179266700000, 959172276669436885130000⟩,
  ⟨5201929288081813497100, 124129082244384680860000, 8916698641086181487100000⟩,
  ⟨5201929288081813497100, 8916698641086179266700000, 124129082244383796150000⟩,
  ⟨5201929288081813497100, 959172276669437162690000, 8916698641086181487100000⟩,
  ⟨5201929288081813497100, 124129082244381280800000, 959172276669440077020000⟩,
  ⟨19344111227620813462000, 1898015101110884783600000, 1378581178914930760500000⟩,
  ⟨19344111227620813462000, 6723403719974183623300000, 1898015101110884783600000⟩,
  ⟨19344111227620813462000, 1378581178914931038000000, 6723403719974185843700000⟩,
  ⟨19344111227620813462000, 6723403719974184733500000, 1378581178914930760500000⟩,
  ⟨19344111227620813462000, 1898015101110884783600000, 6723403719974185843700000⟩,
  ⟨19344111227620813462000, 1378581178914928817600000, 1898015101110887281600000⟩,
  ⟨27180039607925298231000, 4010584512926051448100000, 1353361311535962174800000⟩,
  ⟨27180039607925298231000, 4636054175537985822000000, 4010584512926052558300000⟩,
  ⟨27180039607925298231000, 1353361311535961619700000, 4636054175537988042400000⟩,
  ⟨27180039607925298231000, 4636054175537986377100000, 1353361311535962174800000⟩,
  ⟨27180039607925298231000, 4010584512926052003200000, 4636054175537987487300000⟩,
  ⟨27180039607925298231000, 1353361311535961064600000, 4010584512926054223700000⟩,
  ⟨25665105385067254681000, 2775825322761021340900000, 1435267918924766628000000⟩,
  ⟨25665105385067254681000, 5788906758314211753500000, 2775825322761021896100000⟩,
  ⟨25665105385067254681000, 1435267918924766905600000, 5788906758314212863700000⟩,
  ⟨25665105385067254681000, 5788906758314211753500000, 1435267918924766628000000⟩,
  ⟨25665105385067254681000, 2775825322761021340900000, 5788906758314212863700000⟩,
  ⟨25665105385067254681000, 1435267918924764962700000, 2775825322761023561400000⟩,
  ⟨34342444832574773629000, 3531888048870006624500000, 2936223902259986196000000⟩,
  ⟨34342444832574773629000, 3531888048870007179600000, 3531888048870007734700000⟩,
  ⟨34342444832574773629000, 2936223902259984530600000, 3531888048870008844900000⟩,
  ⟨13624426302032404540000, 3061183766903350367300000, 354515915965141689690000⟩,
  ⟨13624426302032404540000, 6584300317131508428800000, 3061183766903349812200000⟩,
  ⟨13624426302032404540000, 354515915965141203970000, 6584300317131510649200000⟩,
  ⟨13624426302032404540000, 6584300317131508428800000, 354515915965141689690000⟩,
  ⟨13624426302032404540000, 3061183766903349257000000, 6584300317131510649200000⟩,
  ⟨13624426302032404540000, 354515915965140093750000, 3061183766903352587700000⟩,
  ⟨8071536219578769261500, 4951059808027699071800000, 97880383944601821733000⟩,
  ⟨8071536219578769261500, 4951059808027699071800000, 4951059808027699626900000⟩,
  ⟨8071536219578769261500, 97880383944601301316000, 4951059808027701292200000⟩,
  ⟨15409639138513015009000, 4182891701734247624800000, 354185331313221704600000⟩,
  ⟨15409639138513015009000, 5462922966952530323700000, 4182891701734248179900000⟩,
  ⟨15409639138513015009000, 354185331313220941320000, 5462922966952533654400000⟩,
  ⟨15409639138513015009000, 5462922966952531433900000, 354185331313221704600000⟩,
  ⟨15409639138513015009000, 4182891701734247624800000, 5462922966952531433900000⟩,
  ⟨15409639138513015009000, 354185331313220663760000, 4182891701734249845200000⟩,
  ⟨5418112146355242046300, 329098159605345705340000, 329098159605348411500000⟩,
  ⟨5418112146355242046300, 9341803680789305675000000, 329098159605345219610000⟩,
  ⟨5418112146355242046300, 329098159605349938060000, 9341803680789306785200000⟩,
  ⟨10980073304482553670000, 965099243357523811640000, 557938681257981461400000⟩,
  ⟨10980073304482553670000, 8476962075384494310600000, 965099243357523534080000⟩,
  ⟨10980073304482553670000, 557938681257983404290000, 8476962075384495420800000⟩,
  ⟨10980073304482553670000, 8476962075384494310600000, 557938681257981461400000⟩,
  ⟨10980073304482553670000, 965099243357523950420000, 8476962075384496531100000⟩,
  ⟨10980073304482553670000, 557938681257978824620000, 965099243357527003530000⟩,
  ⟨13535858145947343625000, 1328397411105292080800000, 639762347898086281010000⟩,
  ⟨13535858145947343625000, 8031840240996621638200000, 1328397411105292080800000⟩,
  ⟨13535858145947343625000, 639762347898087391230000, 8031840240996622748400000⟩,
  ⟨13535858145947343625000, 8031840240996621638200000, 639762347898086281010000⟩,
  ⟨13535858145947343625000, 1328397411105292635900000, 8031840240996622748400000⟩,
  ⟨13535858145947343625000, 639762347898084199340000, 1328397411105295133900000⟩,
  ⟨8866252831514993609400, 969643297980663232400000, 302625797417711110690000⟩,
  ⟨8866252831514993609400, 8727730904601626038500000, 969643297980662954850000⟩,
  ⟨8866252831514993609400, 302625797417711006610000, 8727730904601628259000000⟩,
  ⟨8866252831514993609400, 8727730904601626038500000, 302625797417711110690000⟩,
  ⟨8866252831514993609400, 969643297980662954850000, 8727730904601628259000000⟩,
  ⟨8866252831514993609400, 302625797417708924940000, 969643297980666563070000⟩,
  ⟨13583025341475886069000, 4865637511306883378200000, 268724977386232723180000⟩,
  ⟨13583025341475886069000, 4865637511306883933300000, 4865637511306884488400000⟩,
  ⟨13583025341475886069000, 268724977386232133370000, 4865637511306886153800000⟩,
  ⟨10597047660427997944000, 4287537536910129287700000, 146376163589685189680000⟩,
  ⟨10597047660427997944000, 5566086299500185852200000, 4287537536910129842800000⟩,
  ⟨10597047660427997944000, 146376163589684860080000, 5566086299500186962400000⟩,
  ⟨10597047660427997944000, 5566086299500184742000000, 146376163589685189680000⟩,
  ⟨10597047660427997944000, 4287537536910129842800000, 5566086299500185852200000⟩,
  ⟨10597047660427997944000, 146376163589684304970000, 4287537536910132063300000⟩,
  ⟨10121646522748268919000, 627150483897616628500000, 627150483897619404060000⟩,
  ⟨10121646522748268919000, 8745699032204764522500000, 627150483897616489730000⟩,
  ⟨10121646522748268919000, 627150483897620514280000, 8745699032204765632800000⟩,
  ⟨6911329136998260952800, 1368534453260830396900000, 136052509293985018910000⟩,
  ⟨6911329136998260952800, 8495413037445184167900000, 1368534453260830396900000⟩,
  ⟨6911329136998260952800, 136052509293986267910000, 8495413037445185278100000⟩,
  ⟨6911329136998260952800, 8495413037445184167900000, 136052509293985018910000⟩,
  ⟨6911329136998260952800, 1368534453260830674500000, 8495413037445186388300000⟩,
  ⟨6911329136998260952800, 136052509293982659690000, 1368534453260834005100000⟩,
  ⟨4143898011379905073700, 3635619090992528446000000, 24760406221922721948000⟩,
  ⟨4143898011379905073700, 6339620502785547895300000, 3635619090992529001100000⟩,
  ⟨4143898011379905073700, 24760406221922548475000, 6339620502785551226000000⟩,
  ⟨4143898011379905073700, 6339620502785549005500000, 24760406221922721948000⟩,
  ⟨4143898011379905073700, 3635619090992527890900000, 6339620502785550115700000⟩,
  ⟨4143898011379905073700, 24760406221921438252000, 3635619090992531221600000⟩,
  ⟨21227159605321619003000, 1447435597702213527800000, 1447435597702216580900000⟩,
  ⟨21227159605321619003000, 7105128804595569613800000, 1447435597702213805300000⟩,
  ⟨21227159605321619003000, 1447435597702216303300000, 7105128804595571834200000⟩,
  ⟨28804649851841561577000, 3361435723276197107300000, 1429259733779294216900000⟩,
  ⟨28804649851841561577000, 5209304542944508398300000, 3361435723276198217500000⟩,
  ⟨28804649851841561577000, 1429259733779293939400000, 5209304542944509508500000⟩,
  ⟨28804649851841561577000, 5209304542944509508500000, 1429259733779294216900000⟩,
  ⟨28804649851841561577000, 3361435723276197662400000, 5209304542944509508500000⟩,
  ⟨28804649851841561577000, 1429259733779292829100000, 3361435723276199327700000⟩,
  ⟨2360510527896034791000, 133646206082615737200000, 133646206082618772960000⟩,
  ⟨2360510527896034791000, 9732707587834764639800000, 133646206082615563730000⟩,
  ⟨2360510527896034791000, 133646206082620455650000, 9732707587834765750000000⟩,
  ⟨2433203267894671988300, 940988534499003353990000, 24207777457972610123000⟩,
  ⟨2433203267894671988300, 9034803688043023806000000, 940988534499003076440000⟩,
  ⟨2433203267894671988300, 24207777457974088975000, 9034803688043024916300000⟩,
  ⟨2433203267894671988300, 9034803688043023806000000, 24207777457972610123000⟩,
  ⟨2433203267894671988300, 940988534499004325440000, 9034803688043024916300000⟩,
  ⟨2433203267894671988300, 24207777457970133805000, 940988534499006684660000⟩,
  ⟨30305853022483276310000, 2427105866699005298800000, 1951503399895133938900000⟩,
  ⟨30305853022483276310000, 5621390733405861039900000, 2427105866699005576300000⟩,
  ⟨30305853022483276310000, 1951503399895133661300000, 5621390733405862150100000⟩,
  ⟨30305853022483276310000, 5621390733405861039900000, 1951503399895133938900000⟩,
  ⟨30305853022483276310000, 2427105866699005298800000, 5621390733405862150100000⟩,
  ⟨30305853022483276310000, 1951503399895131996000000, 2427105866699007241700000⟩,
  ⟨19795801765006594553000, 4252384428310576058900000, 640551018216570233750000⟩,
  ⟨19795801765006594553000, 5107064553472853152300000, 4252384428310577169100000⟩,
  ⟨19795801765006594553000, 640551018216569678640000, 5107064553472855372700000⟩,
  ⟨19795801765006594553000, 5107064553472853152300000, 640551018216570233750000⟩,
  ⟨19795801765006594553000, 4252384428310576614000000, 5107064553472854262500000⟩,
  ⟨19795801765006594553000, 640551018216569123530000, 4252384428310579389500000⟩,
  ⟨9757652807423508817600, 3642781269741873218000000, 131876112324832255040000⟩,
  ⟨9757652807423508817600, 6225342617933294908600000, 3642781269741873218000000⟩,
  ⟨9757652807423508817600, 131876112324832428510000, 6225342617933296018900000⟩,
  ⟨9757652807423508817600, 6225342617933294908600000, 131876112324832255040000⟩,
  ⟨9757652807423508817600, 3642781269741872662800000, 6225342617933296018900000⟩,
  ⟨9757652807423508817600, 131876112324831040730000, 3642781269741875438400000⟩,
  ⟨15879320097892501550000, 1776637264896364920600000, 618730821070126515980000⟩,
  ⟨15879320097892501550000, 7604631914033508355300000, 1776637264896364920600000⟩,
  ⟨15879320097892501550000, 618730821070127001700000, 7604631914033510575700000⟩,
  ⟨15879320097892501550000, 7604631914033508355300000, 618730821070126515980000⟩,
  ⟨15879320097892501550000, 1776637264896365198100000, 7604631914033509465500000⟩,
  ⟨15879320097892501550000, 618730821070124781260000, 1776637264896367973700000⟩,
  ⟨2088844892012401734100, 588456479492050557600000, 26124723427688270085000⟩,
  ⟨2088844892012401734100, 9385418797080260500100000, 588456479492050210660000⟩,
  ⟨2088844892012401734100, 26124723427690121902000, 9385418797080261610300000⟩,
  ⟨2088844892012401734100, 9385418797080261610300000, 26124723427688270085000⟩,
  ⟨2088844892012401734100, 588456479492050488210000, 9385418797080263830800000⟩,
  ⟨2088844892012401734100, 26124723427685438149000, 588456479492053749490000⟩,
  ⟨14018992565018751489000, 2500996019098292721900000, 341904035600949715580000⟩,
  ⟨14018992565018751489000, 7157099945300757770600000, 2500996019098292721900000⟩,
  ⟨14018992565018751489000, 341904035600950062520000, 7157099945300759991100000⟩,
  ⟨14018992565018751489000, 7157099945300756660400000, 341904035600949715580000⟩,
  ⟨14018992565018751489000, 2500996019098293277100000, 7157099945300758880900000⟩,
  ⟨14018992565018751489000, 341904035600948119630000, 2500996019098295497500000⟩,
  ⟨1537161500620599767000, 319725865365346195720000, 26508313305474455121000⟩,
  ⟨1537161500620599767000, 9653765821329178820100000, 319725865365346056950000⟩,
  ⟨1537161500620599767000, 26508313305475539323000, 9653765821329181040500000⟩,
  ⟨1537161500620599767000, 9653765821329178820100000, 26508313305474455121000⟩,
  ⟨1537161500620599767000, 319725865365346750830000, 9653765821329181040500000⟩,
  ⟨1537161500620599767000, 26508313305471514765000, 319725865365349248840000⟩,
  ⟨3790239372578391358900, 2417239613576790402400000, 25915690897239996617000⟩,
  ⟨3790239372578391358900, 7556844695525968269600000, 2417239613576790680000000⟩,
  ⟨3790239372578391358900, 25915690897240772905000, 7556844695525970490000000⟩,
  ⟨3790239372578391358900, 7556844695525969379800000, 25915690897239996617000⟩,
  ⟨3790239372578391358900, 2417239613576790402400000, 7556844695525970490000000⟩,
  ⟨3790239372578391358900, 25915690897238274903000, 2417239613576793178000000⟩,
  ⟨8142800935957091078600, 1844047074392018148400000, 142733464909807362260000⟩,
  ⟨8142800935957091078600, 8013219460698174367900000, 1844047074392018148400000⟩,
  ⟨8142800935957091078600, 142733464909807206130000, 8013219460698177698500000⟩,
  ⟨8142800935957091078600, 8013219460698174367900000, 142733464909807362260000⟩,
  ⟨8142800935957091078600, 1844047074392018981100000, 8013219460698175478100000⟩,
  ⟨8142800935957091078600, 142733464909805679580000, 1844047074392020924000000⟩,
  ⟨5007907575658477076700, 612563890152719517370000, 138564076854345488020000⟩,
  ⟨5007907575658477076700, 9248872032992935254800000, 612563890152719447980000⟩,
  ⟨5007907575658477076700, 138564076854346684970000, 9248872032992936365000000⟩,
  ⟨5007907575658477076700, 9248872032992935254800000, 138564076854345488020000⟩,
  ⟨5007907575658477076700, 612563890152720835760000, 9248872032992936365000000⟩,
  ⟨5007907575658477076700, 138564076854343007360000, 612563890152722639870000⟩,
  ⟨948517546105485172700, 132571416922718544880000, 24938262659978606590000⟩,
  ⟨948517546105485172700, 9842490320417303095700000, 132571416922718544880000⟩,
  ⟨948517546105485172700, 24938262659979226754000, 9842490320417305316200000⟩,
  ⟨948517546105485172700, 9842490320417301985500000, 24938262659978606590000⟩,
  ⟨948517546105485172700, 132571416922718787750000, 9842490320417305316200000⟩,
  ⟨948517546105485172700, 24938262659975757307000, 132571416922722395970000⟩,
  ⟨428662883399411019100, 25649413700201358947000, 25649413700204555175000⟩,
  ⟨428662883399411019100, 9948701172599593300900000, 25649413700201350273000⟩,
  ⟨428662883399411019100, 25649413700206125100000, 9948701172599594411100000⟩,
  ⟨26676376711980945462000, 1877722427785784020700000, 1877722427785786241100000⟩,
  ⟨26676376711980945462000, 6244555144428429738200000, 1877722427785784853300000⟩,
  ⟨26676376711980945462000, 1877722427785785686000000, 6244555144428430848400000⟩,
  ⟨19612968594132154654000, 1379731400814552255700000, 1004409310583719433500000⟩,
  ⟨19612968594132154654000, 7615859288601728449600000, 1379731400814552533300000⟩,
  ⟨19612968594132154654000, 1004409310583719849900000, 7615859288601729559800000⟩,
  ⟨19612968594132154654000, 7615859288601727339300000, 1004409310583719433500000⟩,
  ⟨19612968594132154654000, 1379731400814552255700000, 7615859288601729559800000⟩,
  ⟨19612968594132154654000, 1004409310583717490600000, 1379731400814554753700000⟩,
  ⟨3676322245355566581200, 332056799273112990270000, 136974423527236825040000⟩,
  ⟨3676322245355566581200, 9530968777199649855100000, 332056799273113129050000⟩,
  ⟨3676322245355566581200, 136974423527239097530000, 9530968777199649855100000⟩,
  ⟨3676322245355566581200, 9530968777199649855100000, 136974423527236825040000⟩,
  ⟨3676322245355566581200, 332056799273113822930000, 9530968777199653185800000⟩,
  ⟨3676322245355566581200, 136974423527233962750000, 332056799273116320940000⟩,
  ⟨34748404345282895254000, 3825643087869354808100000, 2348713824261289828700000⟩,
  ⟨34748404345282895254000, 3825643087869355363200000, 3825643087869355918300000⟩,
  ⟨34748404345282895254000, 2348713824261288996000000, 3825643087869356473400000⟩,
  ⟨13138750491332939433000, 1944661967811064651200000, 341431958895440298970000⟩,
  ⟨13138750491332939433000, 7713906073293494980400000, 1944661967811064651200000⟩,
  ⟨13138750491332939433000, 341431958895440645920000, 7713906073293497200900000⟩,
  ⟨13138750491332939433000, 7713906073293494980400000, 341431958895440298970000⟩,
  ⟨13138750491332939433000, 1944661967811064928700000, 7713906073293496090700000⟩,
  ⟨13138750491332939433000, 341431958895438564250000, 1944661967811067426700000⟩,
  ⟨9208169595139563271300, 2394826350852045371300000, 138046252946412654340000⟩,
  ⟨9208169595139563271300, 7467127396201541644800000, 2394826350852045648800000⟩,
  ⟨9208169595139563271300, 138046252946413261500000, 7467127396201542755000000⟩,
  ⟨9208169595139563271300, 7467127396201541644800000, 138046252946412654340000⟩,
  ⟨9208169595139563271300, 2394826350852046204000000, 7467127396201542755000000⟩,
  ⟨9208169595139563271300, 138046252946411041050000, 2394826350852048424400000⟩,
  ⟨29625163863368801295000, 3645542277763407779100000, 1864972142995550974400000⟩,
  ⟨29625163863368801295000, 4489485579241042079200000, 3645542277763408334200000⟩,
  ⟨29625163863368801295000, 1864972142995550419300000, 4489485579241043189400000⟩,
  ⟨29625163863368801295000, 4489485579241041524100000, 1864972142995550974400000⟩,
  ⟨29625163863368801295000, 3645542277763408334200000, 4489485579241042079200000⟩,
  ⟨29625163863368801295000, 1864972142995550141700000, 3645542277763409444400000⟩,
  ⟨3061694204071451473100, 1373564023661998090300000, 25417593646837681985000⟩,
  ⟨3061694204071451473100, 8601018382691164587700000, 1373564023661997812700000⟩,
  ⟨3061694204071451473100, 25417593646838154697000, 8601018382691166808100000⟩,
  ⟨3061694204071451473100, 8601018382691164587700000, 25417593646837681985000⟩,
  ⟨3061694204071451473100, 1373564023661997812700000, 8601018382691166808100000⟩,
  ⟨3061694204071451473100, 25417593646834962806000, 1373564023662001421000000⟩,
  ⟨19124817242394290089000, 2322320373188903885900000, 630349337046809815590000⟩,
  ⟨19124817242394290089000, 7047330289764286437300000, 2322320373188904441000000⟩,
  ⟨19124817242394290089000, 630349337046810509480000, 7047330289764286437300000⟩,
  ⟨19124817242394290089000, 7047330289764286437300000, 630349337046809815590000⟩,
  ⟨19124817242394290089000, 2322320373188905273700000, 7047330289764286437300000⟩,
  ⟨19124817242394290089000, 630349337046807733920000, 2322320373188907494100000⟩,
  ⟨20641516111031283504000, 2926613950722468660000000, 638769125793660075270000⟩,
  ⟨20641516111031283504000, 6434616923483870154500000, 2926613950722469215100000⟩,
  ⟨20641516111031283504000, 638769125793660075270000, 6434616923483873485200000⟩,
  ⟨20641516111031283504000, 6434616923483871264700000, 638769125793660075270000⟩,
  ⟨20641516111031283504000, 2926613950722469770200000, 6434616923483871264700000⟩,
  ⟨20641516111031283504000, 638769125793658687500000, 2926613950722471435600000⟩,
  ⟨33460160208706149661000, 3176481163981567101800000, 2419528451754751619000000⟩,
  ⟨33460160208706149661000, 4403990384263680724100000, 3176481163981568212100000⟩,
  ⟨33460160208706149661000, 2419528451754750786300000, 4403990384263682389400000⟩,
  ⟨33460160208706149661000, 4403990384263681834300000, 2419528451754751619000000⟩,
  ⟨33460160208706149661000, 3176481163981567101800000, 4403990384263682389400000⟩,
  ⟨33460160208706149661000, 2419528451754750231200000, 3176481163981568767200000⟩,
  ⟨10236414736964902835000, 3003015966157783212000000, 145992712589763495160000⟩,
  ⟨10236414736964902835000, 6850991321252453136700000, 3003015966157783212000000⟩,
  ⟨10236414736964902835000, 145992712589763651290000, 6850991321252455357200000⟩,
  ⟨10236414736964902835000, 6850991321252453136700000, 145992712589763495160000⟩,
  ⟨10236414736964902835000, 3003015966157783767100000, 6850991321252453136700000⟩,
  ⟨10236414736964902835000, 145992712589762541060000, 3003015966157785987500000⟩,
  ⟨4390078395825454068500, 3005613537168109750100000, 28181145969260871544000⟩,
  ⟨4390078395825454068500, 6966205316862629226500000, 3005613537168110305200000⟩,
  ⟨4390078395825454068500, 28181145969260468220000, 6966205316862632557200000⟩,
  ⟨4390078395825454068500, 6966205316862629226500000, 28181145969260871544000⟩,
  ⟨4390078395825454068500, 3005613537168110860300000, 6966205316862629226500000⟩,
  ⟨4390078395825454068500, 28181145969259080442000, 3005613537168113080800000⟩,
  ⟨7888925592729389632600, 605239793987312202360000, 341344995593797426170000⟩,
  ⟨7888925592729389632600, 9053415210418889191900000, 605239793987312271750000⟩,
  ⟨7888925592729389632600, 341344995593798605780000, 9053415210418891412300000⟩,
  ⟨7888925592729389632600, 9053415210418890302100000, 341344995593797426170000⟩,
  ⟨7888925592729389632600, 605239793987313312580000, 9053415210418891412300000⟩,
  ⟨7888925592729389632600, 341344995593794720000000, 605239793987315463640000⟩,
  ⟨31537179554942031817000, 3007859192338893650200000, 1933554772764183304900000⟩,
  ⟨31537179554942031817000, 5058586034896923600000000, 3007859192338894205300000⟩,
  ⟨31537179554942031817000, 1933554772764182749800000, 5058586034896924710200000⟩,
  ⟨31537179554942031817000, 5058586034896923600000000, 1933554772764183304900000⟩,
  ⟨31537179554942031817000, 3007859192338893650200000, 5058586034896924710200000⟩,
  ⟨31537179554942031817000, 1933554772764182194700000, 3007859192338895315500000⟩,
  ⟨21363199105265836229000, 1895507039776851976300000, 973629697501508795110000⟩,
  ⟨21363199105265836229000, 7130863262721638395900000, 1895507039776852531400000⟩,
  ⟨21363199105265836229000, 973629697501508517550000, 7130863262721641726600000⟩,
  ⟨21363199105265836229000, 7130863262721639506100000, 973629697501508795110000⟩,
  ⟨21363199105265836229000, 1895507039776852531400000, 7130863262721640616300000⟩,
  ⟨21363199105265836229000, 973629697501506713440000, 1895507039776855029400000⟩,
  ⟨4849186731196299484700, 4301399033621489120800000, 27883024051114269244000⟩,
  ⟨4849186731196299484700, 5670717942327396787800000, 4301399033621489675900000⟩,
  ⟨4849186731196299484700, 27883024051114091435000, 5670717942327399008200000⟩,
  ⟨4849186731196299484700, 5670717942327396787800000, 27883024051114269244000⟩,
  ⟨4849186731196299484700, 4301399033621488565700000, 5670717942327397898000000⟩,
  ⟨4849186731196299484700, 27883024051112981212000, 4301399033621491341300000⟩,
  ⟨3690091352289314634600, 1870185722176646858600000, 27559624464837196092000⟩,
  ⟨3690091352289314634600, 8102254653358516023300000, 1870185722176647136200000⟩,
  ⟨3690091352289314634600, 27559624464836840474000, 8102254653358518243800000⟩,
  ⟨3690091352289314634600, 8102254653358516023300000, 27559624464837196092000⟩,
  ⟨3690091352289314634600, 1870185722176647691300000, 8102254653358517133600000⟩,
  ⟨3690091352289314634600, 27559624464835452695000, 1870185722176649911800000⟩,
  ⟨26309406800637592273000, 3791895225090074483800000, 978271071588677626480000⟩,
  ⟨26309406800637592273000, 5229833703321247195800000, 3791895225090075594000000⟩,
  ⟨26309406800637592273000, 978271071588676655040000, 5229833703321249416300000⟩,
  ⟨26309406800637592273000, 5229833703321248306000000, 978271071588677626480000⟩,
  ⟨26309406800637592273000, 3791895225090075038900000, 5229833703321249416300000⟩,
  ⟨26309406800637592273000, 978271071588676099930000, 3791895225090077259400000⟩,
  ⟨26501359874991259509000, 3129669769821592506500000, 995736856368709677410000⟩,
  ⟨26501359874991259509000, 5874593373809697816100000, 3129669769821593061600000⟩,
  ⟨26501359874991259509000, 995736856368709122300000, 5874593373809700036500000⟩,
  ⟨26501359874991259509000, 5874593373809697816100000, 995736856368709677410000⟩,
  ⟨26501359874991259509000, 3129669769821593616800000, 5874593373809697816100000⟩,
  ⟨26501359874991259509000, 995736856368708289630000, 3129669769821595282100000⟩,
  ⟨12279005051395847602000, 1418044870172889826400000, 341143516662648707550000⟩,
  ⟨12279005051395847602000, 8240811613164461535400000, 1418044870172889548900000⟩,
  ⟨12279005051395847602000, 341143516662649193270000, 8240811613164463755900000⟩,
  ⟨12279005051395847602000, 8240811613164461535400000, 341143516662648707550000⟩,
  ⟨12279005051395847602000, 1418044870172890936600000, 8240811613164462645600000⟩,
  ⟨12279005051395847602000, 341143516662645862600000, 1418044870172893157100000⟩,
  ⟨26664027102005064852000, 4528922608459510224000000, 942154783080979690850000⟩,
  ⟨26664027102005064852000, 4528922608459510224000000, 4528922608459511334200000⟩,
  ⟨26664027102005064852000, 942154783080978996960000, 4528922608459512444400000⟩,
  ⟨25278051975788423320000, 2481814600155884953400000, 1004974432729284217200000⟩,
  ⟨25278051975788423320000, 6513210967114830829400000, 2481814600155885508500000⟩,
  ⟨25278051975788423320000, 1004974432729284772300000, 6513210967114831939600000⟩,
  ⟨25278051975788423320000, 6513210967114830829400000, 1004974432729284217200000⟩,
  ⟨25278051975788423320000, 2481814600155885508500000, 6513210967114831939600000⟩,
  ⟨25278051975788423320000, 1004974432729282413100000, 2481814600155887451400000⟩,
  ⟨22170954845651055787000, 3587978354079986997900000, 616738036965516905900000⟩,
  ⟨22170954845651055787000, 5795283608954495679900000, 3587978354079986997900000⟩,
  ⟨22170954845651055787000, 616738036965516767120000, 5795283608954497900400000⟩,
  ⟨22170954845651055787000, 5795283608954496790100000, 616738036965516905900000⟩,
  ⟨22170954845651055787000, 3587978354079987553000000, 5795283608954496790100000⟩,
  ⟨22170954845651055787000, 616738036965515379340000, 3587978354079989773400000⟩,
  ⟨16453530729269982141000, 928670462140478714110000, 928670462140481073330000⟩,
  ⟨16453530729269982141000, 8142659075719039796200000, 928670462140479130440000⟩,
  ⟨16453530729269982141000, 928670462140481212110000, 8142659075719042016700000⟩,
  ⟨36571045715601698499000, 2524849326490907208700000, 2524849326490908874000000⟩,
  ⟨36571045715601698499000, 4950301347018184472400000, 2524849326490908318900000⟩,
  ⟨36571045715601698499000, 2524849326490908874000000, 4950301347018185027500000⟩]

/-- `HardcodedQuadRule<kTria, 44>()`; /repo/lib/lf/quad/quad_rules_tria.cc:16123-17191. -/
def triaTab44 : List TabRow := [
  ⟨221520454570737544240, 17123075799636998297000, 17123075799640144652000⟩,
  ⟨221520454570737544240, 9965753848400722425500000, 17123075799636939751000⟩,
  ⟨221520454570737544240, 17123075799641007677000, 9965753848400724646000000⟩,
  ⟨2059878232184790395600, 197551676157197361740000, 107567195566842938040000⟩,
  ⟨2059878232184790395600, 9694881128275959492100000, 197551676157196980100000⟩,
  ⟨2059878232184790395600, 107567195566843909480000, 9694881128275961712500000⟩,
  ⟨2059878232184790395600, 9694881128275960602300000, 107567195566842938040000⟩,
  ⟨2059878232184790395600, 197551676157197708680000, 9694881128275961712500000⟩,
  ⟨2059878232184790395600, 107567195566840405340000, 197551676157200831190000⟩,
  ⟨1366204230018411042600, 995165813818446182150000, 7805858998619334297400⟩,
  ⟨1366204230018411042600, 8997028327182934326300000, 995165813818446320930000⟩,
  ⟨1366204230018411042600, 7805858998620185396100, 8997028327182935436600000⟩,
  ⟨1366204230018411042600, 8997028327182934326300000, 7805858998619334297400⟩,
  ⟨1366204230018411042600, 995165813818447708710000, 8997028327182935436600000⟩,
  ⟨1366204230018411042600, 7805858998617340449600, 995165813818449512820000⟩,
  ⟨2696642219649486712700, 1534945447552138742000000, 19383329127905903674000⟩,
  ⟨2696642219649486712700, 8445671223319954901100000, 1534945447552138742000000⟩,
  ⟨2696642219649486712700, 19383329127906634426000, 8445671223319957121600000⟩,
  ⟨2696642219649486712700, 8445671223319954901100000, 19383329127905903674000⟩,
  ⟨2696642219649486712700, 1534945447552139574700000, 8445671223319957121600000⟩,
  ⟨2696642219649486712700, 19383329127903581313000, 1534945447552142350200000⟩,
  ⟨3354894852910194594400, 4606074520039988851000000, 17861424805254105894000⟩,
  ⟨3354894852910194594400, 5376064055154757825900000, 4606074520039989406200000⟩,
  ⟨3354894852910194594400, 17861424805253878212000, 5376064055154758936100000⟩,
  ⟨3354894852910194594400, 5376064055154756715600000, 17861424805254105894000⟩,
  ⟨3354894852910194594400, 4606074520039989406200000, 5376064055154757825900000⟩,
  ⟨3354894852910194594400, 17861424805252767989000, 4606074520039992181700000⟩,
  ⟨1129657680569700343100, 296420604264443915410000, 17542251710527551750000⟩,
  ⟨1129657680569700343100, 9686037144025027023600000, 296420604264443707240000⟩,
  ⟨1129657680569700343100, 17542251710528922182000, 9686037144025029244100000⟩,
  ⟨1129657680569700343100, 9686037144025029244100000, 17542251710527551750000⟩,
  ⟨1129657680569700343100, 296420604264444054190000, 9686037144025031464500000⟩,
  ⟨1129657680569700343100, 17542251710524446595000, 296420604264446899130000⟩,
  ⟨1610331547091688848200, 3338406248248118046700000, 5172942596600699867100⟩,
  ⟨1610331547091688848200, 6656420809155281226300000, 3338406248248118601800000⟩,
  ⟨1610331547091688848200, 5172942596600726972200, 6656420809155283446800000⟩,
  ⟨1610331547091688848200, 6656420809155281226300000, 5172942596600699867100⟩,
  ⟨1610331547091688848200, 3338406248248118601800000, 6656420809155282336500000⟩,
  ⟨1610331547091688848200, 5172942596599061637600, 3338406248248121377400000⟩,
  ⟨5614886914118581750000, 291673514653004867240000, 291673514653007816270000⟩,
  ⟨5614886914118581750000, 9416652970693987212400000, 291673514653004589680000⟩,
  ⟨5614886914118581750000, 291673514653008614240000, 9416652970693989432900000⟩,
  ⟨8725757827664733842100, 495499879123024178360000, 495499879123027023310000⟩,
  ⟨8725757827664733842100, 9009000241753948312600000, 495499879123024108970000⟩,
  ⟨8725757827664733842100, 495499879123028619250000, 9009000241753949422800000⟩,
  ⟨4838836513975668021000, 1194266872274119678500000, 75458709257061103853000⟩,
  ⟨4838836513975668021000, 8730274418468818575800000, 1194266872274119817300000⟩,
  ⟨4838836513975668021000, 75458709257061884479000, 8730274418468820796200000⟩,
  ⟨4838836513975668021000, 8730274418468819686000000, 75458709257061103853000⟩,
  ⟨4838836513975668021000, 1194266872274119539700000, 8730274418468820796200000⟩,
  ⟨4838836513975668021000, 75458709257059317088000, 1194266872274123009200000⟩,
  ⟨6733324460908809332500, 1733118066994289163700000, 114925464528052804350000⟩,
  ⟨6733324460908809332500, 8151956468477656869700000, 1733118066994289163700000⟩,
  ⟨6733324460908809332500, 114925464528054521730000, 8151956468477657979900000⟩,
  ⟨6733324460908809332500, 8151956468477657979900000, 114925464528052804350000⟩,
  ⟨6733324460908809332500, 1733118066994290829000000, 8151956468477657979900000⟩,
  ⟨6733324460908809332500, 114925464528051191060000, 1733118066994292494300000⟩,
  ⟨6687541419906179677300, 593978633857566162830000, 242629677211045335920000⟩,
  ⟨6687541419906179677300, 9163391688931388223700000, 593978633857566301610000⟩,
  ⟨6687541419906179677300, 242629677211045891030000, 9163391688931390444100000⟩,
  ⟨6687541419906179677300, 9163391688931388223700000, 242629677211045335920000⟩,
  ⟨6687541419906179677300, 593978633857566995500000, 9163391688931390444100000⟩,
  ⟨6687541419906179677300, 242629677211043531800000, 593978633857569493500000⟩,
  ⟨6047140183441160592900, 2594461646278431454800000, 97976933024596420813000⟩,
  ⟨6047140183441160592900, 7307561420696971898900000, 2594461646278432009900000⟩,
  ⟨6047140183441160592900, 97976933024596091215000, 7307561420696975229600000⟩,
  ⟨6047140183441160592900, 7307561420696971898900000, 97976933024596420813000⟩,
  ⟨6047140183441160592900, 2594461646278432565000000, 7307561420696971898900000⟩,
  ⟨6047140183441160592900, 97976933024594703436000, 2594461646278434785500000⟩,
  ⟨2986880708809415484000, 2696648795311177848600000, 18991508282083366041000⟩,
  ⟨2986880708809415484000, 7284359696406738082800000, 2696648795311178403700000⟩,
  ⟨2986880708809415484000, 18991508282084068604000, 7284359696406740303200000⟩,
  ⟨2986880708809415484000, 7284359696406739193000000, 18991508282083366041000⟩,
  ⟨2986880708809415484000, 2696648795311179513900000, 7284359696406739193000000⟩,
  ⟨2986880708809415484000, 18991508282081570602000, 2696648795311181179300000⟩,
  ⟨7341005318667856481900, 3234284104109564350600000, 76746798561443466125000⟩,
  ⟨7341005318667856481900, 6688969097328991697500000, 3234284104109564905700000⟩,
  ⟨7341005318667856481900, 76746798561443396736000, 6688969097328993918000000⟩,
  ⟨7341005318667856481900, 6688969097328991697500000, 76746798561443466125000⟩,
  ⟨7341005318667856481900, 3234284104109563795500000, 6688969097328993918000000⟩,
  ⟨7341005318667856481900, 76746798561442008957000, 3234284104109567681300000⟩,
  ⟨4005272426006207674300, 2093976094351924777100000, 27072043077685922427000⟩,
  ⟨4005272426006207674300, 7878951862570389153000000, 2093976094351925054700000⟩,
  ⟨4005272426006207674300, 27072043077686069878000, 7878951862570391373500000⟩,
  ⟨4005272426006207674300, 7878951862570389153000000, 27072043077685922427000⟩,
  ⟨4005272426006207674300, 2093976094351924777100000, 7878951862570391373500000⟩,
  ⟨4005272426006207674300, 27072043077683571877000, 2093976094351927552700000⟩,
  ⟨927835211688663732360, 107937373867395408620000, 27063965571698933577000⟩,
  ⟨927835211688663732360, 9864998660560905241500000, 107937373867394940250000⟩,
  ⟨927835211688663732360, 27063965571700876467000, 9864998660560906351700000⟩,
  ⟨927835211688663732360, 9864998660560905241500000, 27063965571698933577000⟩,
  ⟨927835211688663732360, 107937373867397212730000, 9864998660560906351700000⟩,
  ⟨927835211688663732360, 27063965571696756499000, 107937373867398791330000⟩,
  ⟨3607110132130616087600, 416577600266789249690000, 104627340296394866210000⟩,
  ⟨3607110132130616087600, 9478795059436815329000000, 416577600266788972140000⟩,
  ⟨3607110132130616087600, 104627340296396531550000, 9478795059436816439200000⟩,
  ⟨3607110132130616087600, 9478795059436816439200000, 104627340296394866210000⟩,
  ⟨3607110132130616087600, 416577600266790359920000, 9478795059436816439200000⟩,
  ⟨3607110132130616087600, 104627340296392819240000, 416577600266792788530000⟩,
  ⟨7660833620237148021800, 1393007744184822371800000, 215128602849198879990000⟩,
  ⟨7660833620237148021800, 8391863652965978470600000, 1393007744184822649400000⟩,
  ⟨7660833620237148021800, 215128602849199990210000, 8391863652965979580900000⟩,
  ⟨7660833620237148021800, 8391863652965978470600000, 215128602849198879990000⟩,
  ⟨7660833620237148021800, 1393007744184822649400000, 8391863652965979580900000⟩,
  ⟨7660833620237148021800, 215128602849196937100000, 1393007744184825980000000⟩,
  ⟨13648263582449668679000, 4877239805831533603400000, 245520388336932966770000⟩,
  ⟨13648263582449668679000, 4877239805831533603400000, 4877239805831534713600000⟩,
  ⟨13648263582449668679000, 245520388336932238180000, 4877239805831535823800000⟩,
  ⟨7545133102141476141200, 971407574555290531660000, 228245356349519729070000⟩,
  ⟨7545133102141476141200, 8800347069095190155600000, 971407574555290531660000⟩,
  ⟨7545133102141476141200, 228245356349520145400000, 8800347069095191265800000⟩,
  ⟨7545133102141476141200, 8800347069095190155600000, 228245356349519729070000⟩,
  ⟨7545133102141476141200, 971407574555290809220000, 8800347069095191265800000⟩,
  ⟨7545133102141476141200, 228245356349517439230000, 971407574555294001110000⟩,
  ⟨17008612364745089376000, 1511248097389705780100000, 1000885303047900215500000⟩,
  ⟨17008612364745089376000, 7487866599562393865600000, 1511248097389706335200000⟩,
  ⟨17008612364745089376000, 1000885303047900909400000, 7487866599562394975800000⟩,
  ⟨17008612364745089376000, 7487866599562393865600000, 1000885303047900215500000⟩,
  ⟨17008612364745089376000, 1511248097389706335200000, 7487866599562394975800000⟩,
  ⟨17008612364745089376000, 1000885303047898272600000, 1511248097389708833200000⟩,
  ⟨6022530067059622509200, 4960618044654749314600000, 78763910690500937156000⟩,
  ⟨6022530067059622509200, 4960618044654749869700000, 4960618044654749869700000⟩,
  ⟨6022530067059622509200, 78763910690500260614000, 4960618044654752090100000⟩,
  ⟨5179940819031930232900, 3939323955351544670500000, 31595695366355078249000⟩,
  ⟨5179940819031930232900, 6029080349282099904300000, 3939323955351545225600000⟩,
  ⟨5179940819031930232900, 31595695366354870082000, 6029080349282102124800000⟩,
  ⟨5179940819031930232900, 6029080349282099904300000, 31595695366355078249000⟩,
  ⟨5179940819031930232900, 3939323955351544115400000, 6029080349282102124800000⟩,
  ⟨5179940819031930232900, 31595695366353482303000, 3939323955351547446000000⟩,
  ⟨11887438463899313666000, 1276374594173247667400000, 435675752808351648970000⟩,
  ⟨11887438463899313666000, 8287949653018399365200000, 1276374594173247667400000⟩,
  ⟨11887438463899313666000, 435675752808352134690000, 8287949653018402695900000⟩,
  ⟨11887438463899313666000, 8287949653018401585700000, 435675752808351648970000⟩,
  ⟨11887438463899313666000, 1276374594173247389900000, 8287949653018402695900000⟩,
  ⟨11887438463899313666000, 435675752808349359140000, 1276374594173250720500000⟩,
  ⟨16976956170923394006000, 2153427859170523039900000, 628153762458395631410000⟩,
  ⟨16976956170923394006000, 7218418378371082022600000, 2153427859170523317500000⟩,
  ⟨16976956170923394006000, 628153762458395492630000, 7218418378371083132800000⟩,
  ⟨16976956170923394006000, 7218418378371080912400000, 628153762458395631410000⟩,
  ⟨16976956170923394006000, 2153427859170523595000000, 7218418378371083132800000⟩,
  ⟨16976956170923394006000, 628153762458393827290000, 2153427859170525815500000⟩,
  ⟨13520441912409104229000, 1805238872560285257100000, 346911866169311577930000⟩,
  ⟨13520441912409104229000, 7847849261270403165000000, 1805238872560285257100000⟩,
  ⟨13520441912409104229000, 346911866169312133050000, 7847849261270404275200000⟩,
  ⟨13520441912409104229000, 7847849261270403165000000, 346911866169311577930000⟩,
  ⟨13520441912409104229000, 1805238872560285812200000, 7847849261270404275200000⟩,
  ⟨13520441912409104229000, 346911866169309635040000, 1805238872560288032600000⟩,
  ⟨10085016951456447949000, 3706974787497283041500000, 159521357680311760830000⟩,
  ⟨10085016951456447949000, 6133503854822405232400000, 3706974787497283596600000⟩,
  ⟨10085016951456447949000, 159521357680312281250000, 6133503854822406342600000⟩,
  ⟨10085016951456447949000, 6133503854822404122200000, 159521357680311760830000⟩,
  ⟨10085016951456447949000, 3706974787497284151700000, 6133503854822405232400000⟩,
  ⟨10085016951456447949000, 159521357680310338360000, 3706974787497286372200000⟩,
  ⟨13959405662128856335000, 2389043466345938671000000, 365656909809639746320000⟩,
  ⟨13959405662128856335000, 7245299623844421166300000, 2389043466345938948600000⟩,
  ⟨13959405662128856335000, 365656909809640162660000, 7245299623844423386700000⟩,
  ⟨13959405662128856335000, 7245299623844421166300000, 365656909809639746320000⟩,
  ⟨13959405662128856335000, 2389043466345939226200000, 7245299623844423386700000⟩,
  ⟨13959405662128856335000, 365656909809637803430000, 2389043466345941724200000⟩,
  ⟨11828966553896248532000, 765961156051737368510000, 765961156051740560400000⟩,
  ⟨11828966553896248532000, 8468077687896521377200000, 765961156051736952180000⟩,
  ⟨11828966553896248532000, 765961156051742086960000, 8468077687896522487400000⟩,
  ⟨21502294328652488825000, 4035445047649169336700000, 1228672484069712050900000⟩,
  ⟨21502294328652488825000, 4735882468281119028800000, 4035445047649169891800000⟩,
  ⟨21502294328652488825000, 1228672484069711357000000, 4735882468281121249200000⟩,
  ⟨21502294328652488825000, 4735882468281119028800000, 1228672484069712050900000⟩,
  ⟨21502294328652488825000, 4035445047649169336700000, 4735882468281119583900000⟩,
  ⟨21502294328652488825000, 1228672484069711079400000, 4035445047649171002000000⟩,
  ⟨24919282645968808890000, 2510886184010616695200000, 1220611920335108041600000⟩,
  ⟨24919282645968808890000, 6268501895654274846900000, 2510886184010617805400000⟩,
  ⟨24919282645968808890000, 1220611920335107902800000, 6268501895654277067400000⟩,
  ⟨24919282645968808890000, 6268501895654274846900000, 1220611920335108041600000⟩,
  ⟨24919282645968808890000, 2510886184010616695200000, 6268501895654277067400000⟩,
  ⟨24919282645968808890000, 1220611920335105959900000, 2510886184010619470700000⟩,
  ⟨23266481378334956560000, 3100924603530019196800000, 878278870328067923220000⟩,
  ⟨23266481378334956560000, 6020796526141912741200000, 3100924603530019751900000⟩,
  ⟨23266481378334956560000, 878278870328067506890000, 6020796526141914961600000⟩,
  ⟨23266481378334956560000, 6020796526141912741200000, 878278870328067923220000⟩,
  ⟨23266481378334956560000, 3100924603530019196800000, 6020796526141914961600000⟩,
  ⟨23266481378334956560000, 878278870328066396670000, 3100924603530021972400000⟩,
  ⟨20639380211282527637000, 4171889370681111097700000, 656811030561964964700000⟩,
  ⟨20639380211282527637000, 5171299598756924353900000, 4171889370681111097700000⟩,
  ⟨20639380211282527637000, 656811030561964548370000, 5171299598756926574300000⟩,
  ⟨20639380211282527637000, 5171299598756924353900000, 656811030561964964700000⟩,
  ⟨20639380211282527637000, 4171889370681111097700000, 5171299598756924353900000⟩,
  ⟨20639380211282527637000, 656811030561963993260000, 4171889370681113318200000⟩,
  ⟨17555971341706073669000, 4759518460527712435700000, 480963078944574851100000⟩,
  ⟨17555971341706073669000, 4759518460527713545900000, 4759518460527712990800000⟩,
  ⟨17555971341706073669000, 480963078944574018440000, 4759518460527715211200000⟩,
  ⟨10289108811762464040000, 842771975158688041450000, 457201471848305632250000⟩,
  ⟨10289108811762464040000, 8700026552993006534500000, 842771975158687902670000⟩,
  ⟨10289108811762464040000, 457201471848305840420000, 8700026552993008754900000⟩,
  ⟨10289108811762464040000, 8700026552993006534500000, 457201471848305632250000⟩,
  ⟨10289108811762464040000, 842771975158687625120000, 8700026552993008754900000⟩,
  ⟨10289108811762464040000, 457201471848303273030000, 842771975158691094570000⟩,
  ⟨19469102292144066166000, 2875172818904951910200000, 528034108950670294510000⟩,
  ⟨19469102292144066166000, 6596793072144377934100000, 2875172818904953020400000⟩,
  ⟨19469102292144066166000, 528034108950670155740000, 6596793072144379044300000⟩,
  ⟨19469102292144066166000, 6596793072144377934100000, 528034108950670294510000⟩,
  ⟨19469102292144066166000, 2875172818904952465300000, 6596793072144379044300000⟩,
  ⟨19469102292144066166000, 528034108950668767960000, 2875172818904954685800000⟩,
  ⟨14717340235978872490000, 1090955419572376544600000, 1090955419572378903800000⟩,
  ⟨14717340235978872490000, 7818089160855243857600000, 1090955419572376267100000⟩,
  ⟨14717340235978872490000, 1090955419572380291600000, 7818089160855246078100000⟩,
  ⟨13853806982777720509000, 3421421849069924414600000, 332627075502785821140000⟩,
  ⟨13853806982777720509000, 6245951075427289556100000, 3421421849069924969700000⟩,
  ⟨13853806982777720509000, 332627075502785474190000, 6245951075427291776500000⟩,
  ⟨13853806982777720509000, 6245951075427289556100000, 332627075502785821140000⟩,
  ⟨13853806982777720509000, 3421421849069924414600000, 6245951075427291776500000⟩,
  ⟨13853806982777720509000, 332627075502784919080000, 3421421849069926635100000⟩,
  ⟨33616214492365476679000, 2312470036938409356800000, 2312470036938411299700000⟩,
  ⟨33616214492365476679000, 5375059926123180176200000, 2312470036938410189500000⟩,
  ⟨33616214492365476679000, 2312470036938411022100000, 5375059926123180176200000⟩,
  ⟨24899294062594610685000, 1959081982236504926300000, 1959081982236507424300000⟩,
  ⟨24899294062594610685000, 6081836035526987371800000, 1959081982236505759000000⟩,
  ⟨24899294062594610685000, 1959081982236506314100000, 6081836035526989592300000⟩,
  ⟨12400719992533822209000, 2907813356274842608900000, 230909511650298354680000⟩,
  ⟨12400719992533822209000, 6861277132074860007900000, 2907813356274842608900000⟩,
  ⟨12400719992533822209000, 230909511650299048570000, 6861277132074860007900000⟩,
  ⟨12400719992533822209000, 6861277132074858897700000, 230909511650298354680000⟩,
  ⟨12400719992533822209000, 2907813356274843719100000, 6861277132074860007900000⟩,
  ⟨12400719992533822209000, 230909511650296828120000, 2907813356274845384400000⟩,
  ⟨4314510904167740161200, 777385297161002769560000, 84121228886458298407000⟩,
  ⟨4314510904167740161200, 9138493473952539192200000, 777385297161002214450000⟩,
  ⟨4314510904167740161200, 84121228886460674978000, 9138493473952539192200000⟩,
  ⟨4314510904167740161200, 9138493473952539192200000, 84121228886458298407000⟩,
  ⟨4314510904167740161200, 777385297161003463450000, 9138493473952539192200000⟩,
  ⟨4314510904167740161200, 84121228886456303475000, 777385297161006100230000⟩,
  ⟨1604665887871476229700, 583538087981567143990000, 18558446904390871364000⟩,
  ⟨1604665887871476229700, 9397903465114041399200000, 583538087981567143990000⟩,
  ⟨1604665887871476229700, 18558446904392567056000, 9397903465114042509400000⟩,
  ⟨1604665887871476229700, 9397903465114042509400000, 18558446904390871364000⟩,
  ⟨1604665887871476229700, 583538087981568254210000, 9397903465114042509400000⟩,
  ⟨1604665887871476229700, 18558446904388126164000, 583538087981571029770000⟩,
  ⟨24905043053087203009000, 3537362173911874352300000, 1518612214991534037400000⟩,
  ⟨24905043053087203009000, 4944025611096591887900000, 3537362173911874907400000⟩,
  ⟨24905043053087203009000, 1518612214991533482200000, 4944025611096593553200000⟩,
  ⟨24905043053087203009000, 4944025611096592443000000, 1518612214991534037400000⟩,
  ⟨24905043053087203009000, 3537362173911874907400000, 4944025611096592998100000⟩,
  ⟨24905043053087203009000, 1518612214991532094500000, 3537362173911876572800000⟩,
  ⟨25097889590407645478000, 1941036834219221352000000, 1466938464955037657600000⟩,
  ⟨25097889590407645478000, 6592024700825740435300000, 1941036834219221907100000⟩,
  ⟨25097889590407645478000, 1466938464955038212700000, 6592024700825741545500000⟩,
  ⟨25097889590407645478000, 6592024700825740435300000, 1466938464955037657600000⟩,
  ⟨25097889590407645478000, 1941036834219222462200000, 6592024700825741545500000⟩,
  ⟨25097889590407645478000, 1466938464955035992300000, 1941036834219224127600000⟩,
  ⟨13846164091467650509000, 1152446802620742671900000, 730582724234847963320000⟩,
  ⟨13846164091467650509000, 8116970473144409226100000, 1152446802620742810600000⟩,
  ⟨13846164091467650509000, 730582724234848934760000, 8116970473144410336300000⟩,
  ⟨13846164091467650509000, 8116970473144409226100000, 730582724234847963320000⟩,
  ⟨13846164091467650509000, 1152446802620742949400000, 8116970473144410336300000⟩,
  ⟨13846164091467650509000, 730582724234845742870000, 1152446802620745447400000⟩,
  ⟨18507903298394157068000, 2526489188568273869300000, 833205145800466895340000⟩,
  ⟨18507903298394157068000, 6640305665631258680300000, 2526489188568273869300000⟩,
  ⟨18507903298394157068000, 833205145800467450460000, 6640305665631260900700000⟩,
  ⟨18507903298394157068000, 6640305665631259790500000, 833205145800466895340000⟩,
  ⟨18507903298394157068000, 2526489188568273869300000, 6640305665631260900700000⟩,
  ⟨18507903298394157068000, 833205145800465785120000, 2526489188568276089700000⟩,
  ⟨25375187295810005400000, 3706381279110350646100000, 976700995193537646610000⟩,
  ⟨25375187295810005400000, 5316917725696111984800000, 3706381279110351201200000⟩,
  ⟨25375187295810005400000, 976700995193537369050000, 5316917725696113095100000⟩,
  ⟨25375187295810005400000, 5316917725696111984800000, 976700995193537646610000⟩,
  ⟨25375187295810005400000, 3706381279110351201200000, 5316917725696113095100000⟩,
  ⟨25375187295810005400000, 976700995193536258830000, 3706381279110353421700000⟩,
  ⟨21338383457740923987000, 1975107662353284554400000, 1021274732358202347300000⟩,
  ⟨21338383457740923987000, 7003617605288512404400000, 1975107662353284832000000⟩,
  ⟨21338383457740923987000, 1021274732358203318800000, 7003617605288513514600000⟩,
  ⟨21338383457740923987000, 7003617605288513514600000, 1021274732358202347300000⟩,
  ⟨21338383457740923987000, 1975107662353285387100000, 7003617605288513514600000⟩,
  ⟨21338383457740923987000, 1021274732358200404400000, 1975107662353287330000000⟩,
  ⟨8646136519940681884300, 2191021787766395945200000, 169401226467935060730000⟩,
  ⟨8646136519940681884300, 7639576985765668126800000, 2191021787766395945200000⟩,
  ⟨8646136519940681884300, 169401226467935650530000, 7639576985765670347200000⟩,
  ⟨8646136519940681884300, 7639576985765668126800000, 169401226467935060730000⟩,
  ⟨8646136519940681884300, 2191021787766396222700000, 7639576985765670347200000⟩,
  ⟨8646136519940681884300, 169401226467933291310000, 2191021787766398720700000⟩,
  ⟨16123699561219760786000, 1647494714555341466200000, 646074146543942490210000⟩,
  ⟨16123699561219760786000, 7706431138900715627200000, 1647494714555341743800000⟩,
  ⟨16123699561219760786000, 646074146543943461650000, 7706431138900716737400000⟩,
  ⟨16123699561219760786000, 7706431138900716737400000, 646074146543942490210000⟩,
  ⟨16123699561219760786000, 1647494714555342576500000, 7706431138900716737400000⟩,
  ⟨16123699561219760786000, 646074146543940130980000, 1647494714555344241800000⟩,
  ⟨26439738564809512483000, 3487568874306149480100000, 1942934918619254047700000⟩,
  ⟨26439738564809512483000, 4569496207074597027300000, 3487568874306150590300000⟩,
  ⟨26439738564809512483000, 1942934918619252937500000, 4569496207074598137500000⟩,
  ⟨26439738564809512483000, 4569496207074595917100000, 1942934918619254047700000⟩,
  ⟨26439738564809512483000, 3487568874306150590300000, 4569496207074597027300000⟩,
  ⟨26439738564809512483000, 1942934918619252937500000, 3487568874306151700500000⟩,
  ⟨20097921431825372697000, 3558533300586623204800000, 587895877753212212080000⟩,
  ⟨20097921431825372697000, 5853570821660165624000000, 3558533300586623759900000⟩,
  ⟨20097921431825372697000, 587895877753212281470000, 5853570821660166734200000⟩,
  ⟨20097921431825372697000, 5853570821660164513700000, 587895877753212212080000⟩,
  ⟨20097921431825372697000, 3558533300586623759900000, 5853570821660165624000000⟩,
  ⟨20097921431825372697000, 587895877753210893690000, 3558533300586625425200000⟩,
  ⟨30304166036500268522000, 3487165289854693983600000, 2435849758851731383700000⟩,
  ⟨30304166036500268522000, 4076984951293575187800000, 3487165289854695093800000⟩,
  ⟨30304166036500268522000, 2435849758851730273400000, 4076984951293576298100000⟩,
  ⟨30304166036500268522000, 4076984951293575187800000, 2435849758851731383700000⟩,
  ⟨30304166036500268522000, 3487165289854693428500000, 4076984951293575743000000⟩,
  ⟨30304166036500268522000, 2435849758851729718300000, 3487165289854695648900000⟩,
  ⟨24604186226233845138000, 4223218082071513723700000, 1553563835856973107700000⟩,
  ⟨24604186226233845138000, 4223218082071513723700000, 4223218082071514278800000⟩,
  ⟨24604186226233845138000, 1553563835856972552600000, 4223218082071514833900000⟩,
  ⟨25107375142988008938000, 4548817499595059210500000, 902365000809881301350000⟩,
  ⟨25107375142988008938000, 4548817499595059765700000, 4548817499595060320800000⟩,
  ⟨25107375142988008938000, 902365000809880468680000, 4548817499595061431000000⟩,
  ⟨28995685292816440574000, 2907043355496960468400000, 1861259659561632917600000⟩,
  ⟨28995685292816440574000, 5231696984941406336500000, 2907043355496961578600000⟩,
  ⟨28995685292816440574000, 1861259659561632084900000, 5231696984941408556900000⟩,
  ⟨28995685292816440574000, 5231696984941406336500000, 1861259659561632917600000⟩,
  ⟨28995685292816440574000, 2907043355496960468400000, 5231696984941408556900000⟩,
  ⟨28995685292816440574000, 1861259659561630697100000, 2907043355496962688800000⟩,
  ⟨22232966203806566081000, 1439001195404208122100000, 1439001195404210620100000⟩,
  ⟨22232966203806566081000, 7121997609191581535300000, 1439001195404208122100000⟩,
  ⟨22232966203806566081000, 1439001195404210342600000, 7121997609191583755700000⟩,
  ⟨31965737605550237702000, 2898629348171136710400000, 2383570195525562263100000⟩,
  ⟨31965737605550237702000, 4717800456303300471500000, 2898629348171137820600000⟩,
  ⟨31965737605550237702000, 2383570195525561985500000, 4717800456303302136800000⟩,
  ⟨31965737605550237702000, 4717800456303301581700000, 2383570195525562263100000⟩,
  ⟨31965737605550237702000, 2898629348171136710400000, 4717800456303302136800000⟩,
  ⟨31965737605550237702000, 2383570195525560875300000, 2898629348171138375700000⟩,
  ⟨23233063822922024773000, 4023404478547353835300000, 1953191042905292607000000⟩,
  ⟨23233063822922024773000, 4023404478547353280100000, 4023404478547354390400000⟩,
  ⟨23233063822922024773000, 1953191042905292051900000, 4023404478547354945500000⟩,
  ⟨28273375044942186153000, 3093835754454579700700000, 1312296167919729805700000⟩,
  ⟨28273375044942186153000, 5593868077625689938500000, 3093835754454580255800000⟩,
  ⟨28273375044942186153000, 1312296167919729805700000, 5593868077625692159000000⟩,
  ⟨28273375044942186153000, 5593868077625689938500000, 1312296167919729805700000⟩,
  ⟨28273375044942186153000, 3093835754454579145500000, 5593868077625692159000000⟩,
  ⟨28273375044942186153000, 1312296167919728417900000, 3093835754454581921100000⟩,
  ⟨26555247084499877287000, 2469795390992444439300000, 1684589785524792104900000⟩,
  ⟨26555247084499877287000, 5845614823482763178200000, 2469795390992444994400000⟩,
  ⟨26555247084499877287000, 1684589785524792104900000, 5845614823482764288400000⟩,
  ⟨26555247084499877287000, 5845614823482763178200000, 1684589785524792104900000⟩,
  ⟨26555247084499877287000, 2469795390992444716900000, 5845614823482764288400000⟩,
  ⟨26555247084499877287000, 1684589785524790439600000, 2469795390992446659800000⟩,
  ⟨9866152107379504588400, 4353451951214651893800000, 131254695112234757300000⟩,
  ⟨9866152107379504588400, 5515293353673113019300000, 4353451951214652448900000⟩,
  ⟨9866152107379504588400, 131254695112234531780000, 5515293353673115239700000⟩,
  ⟨9866152107379504588400, 5515293353673113019300000, 131254695112234757300000⟩,
  ⟨9866152107379504588400, 4353451951214652448900000, 5515293353673113019300000⟩,
  ⟨9866152107379504588400, 131254695112233421560000, 4353451951214655224500000⟩,
  ⟨32127360250871644411000, 2942957656908339325600000, 2942957656908340435800000⟩,
  ⟨32127360250871644411000, 4114084686183320238600000, 2942957656908340435800000⟩,
  ⟨32127360250871644411000, 2942957656908339325600000, 4114084686183321903900000⟩,
  ⟨31327939418134159201000, 3516157887957689354200000, 2967684224084621291700000⟩,
  ⟨31327939418134159201000, 3516157887957689354200000, 3516157887957691019500000⟩,
  ⟨31327939418134159201000, 2967684224084619071200000, 3516157887957691019500000⟩,
  ⟨17777397357834714454000, 4137012893148830916500000, 344134405185802239040000⟩,
  ⟨17777397357834714454000, 5518852701665367677100000, 4137012893148830916500000⟩,
  ⟨17777397357834714454000, 344134405185801961480000, 5518852701665368787300000⟩,
  ⟨17777397357834714454000, 5518852701665366566900000, 344134405185802239040000⟩,
  ⟨17777397357834714454000, 4137012893148830916500000, 5518852701665367677100000⟩,
  ⟨17777397357834714454000, 344134405185801406370000, 4137012893148833692100000⟩]

end Verif
