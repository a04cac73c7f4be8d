import Verif.Model.TriaTabBase

/-! Generated by tools/quad_tables.py from /repo/lib/lf/quad/quad_rules_tria.cc. -/

namespace Verif

/-- `HardcodedQuadRule<kTria, 50>()`; /repo/lib/lf/quad/quad_rules_tria.cc:23281-24646. -/
def triaTab50 : List TabRow := [
  ⟨16643475873566143490000, 2563558633847908274600000, 2563558633847909940000000⟩,
  ⟨16643475873566143490000, 4872882732304182340500000, 2563558633847909384900000⟩,
  ⟨16643475873566143490000, 2563558633847909384900000, 4872882732304183450700000⟩,
  ⟨1736640797462386072100, 4433230868583420414300000, 9224561060704703245200⟩,
  ⟨1736640797462386072100, 5557544570355874569100000, 4433230868583420969400000⟩,
  ⟨1736640797462386072100, 9224561060703906356700, 5557544570355877899800000⟩,
  ⟨1736640797462386072100, 5557544570355874569100000, 9224561060704703245200⟩,
  ⟨1736640797462386072100, 4433230868583420414300000, 5557544570355875679400000⟩,
  ⟨1736640797462386072100, 9224561060703906356700, 4433230868583423189800000⟩,
  ⟨1500250509549538803700, 259368938757903871870000, 224379912623130783890000⟩,
  ⟨1500250509549538803700, 9516251148618964927900000, 259368938757903004510000⟩,
  ⟨1500250509549538803700, 224379912623132726780000, 9516251148618966038100000⟩,
  ⟨1500250509549538803700, 9516251148618964927900000, 224379912623130783890000⟩,
  ⟨1500250509549538803700, 259368938757905675980000, 9516251148618966038100000⟩,
  ⟨1500250509549538803700, 224379912623127938940000, 259368938757907480100000⟩,
  ⟨13652010296148933514000, 2401441052632694583800000, 2227907282937328925500000⟩,
  ⟨13652010296148933514000, 5370651664429976213100000, 2401441052632695416500000⟩,
  ⟨13652010296148933514000, 2227907282937328092800000, 5370651664429978433500000⟩,
  ⟨13652010296148933514000, 5370651664429976213100000, 2227907282937328925500000⟩,
  ⟨13652010296148933514000, 2401441052632695138900000, 5370651664429978433500000⟩,
  ⟨13652010296148933514000, 2227907282937326982600000, 2401441052632696804300000⟩,
  ⟨5664857258923125483600, 1345526180266427007700000, 231202139702463074780000⟩,
  ⟨5664857258923125483600, 8423271680031109154300000, 1345526180266426730100000⟩,
  ⟨5664857258923125483600, 231202139702463838060000, 8423271680031111374700000⟩,
  ⟨5664857258923125483600, 8423271680031110264500000, 231202139702463074780000⟩,
  ⟨5664857258923125483600, 1345526180266427007700000, 8423271680031111374700000⟩,
  ⟨5664857258923125483600, 231202139702460784940000, 1345526180266430338300000⟩,
  ⟨682609204983525633130, 450355724673314194990000, 8567797950089722867200⟩,
  ⟨682609204983525633130, 9541076477376595477200000, 450355724673314125610000⟩,
  ⟨682609204983525633130, 8567797950091438075000, 9541076477376596587400000⟩,
  ⟨682609204983525633130, 9541076477376596587400000, 8567797950089722867200⟩,
  ⟨682609204983525633130, 450355724673315305220000, 9541076477376596587400000⟩,
  ⟨682609204983525633130, 8567797950087066571900, 450355724673317942000000⟩,
  ⟨3846880333921613237900, 4087145665677718864300000, 48086376608720057119000⟩,
  ⟨3846880333921613237900, 5864767957713561408200000, 4087145665677718864300000⟩,
  ⟨3846880333921613237900, 48086376608720282633000, 5864767957713562518400000⟩,
  ⟨3846880333921613237900, 5864767957713561408200000, 48086376608720057119000⟩,
  ⟨3846880333921613237900, 4087145665677719419400000, 5864767957713561408200000⟩,
  ⟨3846880333921613237900, 48086376608718617298000, 4087145665677721639900000⟩,
  ⟨6484865973060679805400, 1714634577399832271500000, 234930123594385593940000⟩,
  ⟨6484865973060679805400, 8050435299005781475400000, 1714634577399832271500000⟩,
  ⟨6484865973060679805400, 234930123594386253140000, 8050435299005783695800000⟩,
  ⟨6484865973060679805400, 8050435299005782585600000, 234930123594385593940000⟩,
  ⟨6484865973060679805400, 1714634577399832271500000, 8050435299005783695800000⟩,
  ⟨6484865973060679805400, 234930123594383755140000, 1714634577399835602100000⟩,
  ⟨182966121231848855990, 16305781421460426982000, 16305781421463356497000⟩,
  ⟨182966121231848855990, 9967388437157076452900000, 16305781421460151595000⟩,
  ⟨182966121231848855990, 16305781421465104231000, 9967388437157076452900000⟩,
  ⟨14029275810552158717000, 2101059247050331424400000, 933966471293635747130000⟩,
  ⟨14029275810552158717000, 6964974281656032273300000, 2101059247050331979500000⟩,
  ⟨14029275810552158717000, 933966471293635747130000, 6964974281656034493800000⟩,
  ⟨14029275810552158717000, 6964974281656033383600000, 933966471293635747130000⟩,
  ⟨14029275810552158717000, 2101059247050331424400000, 6964974281656034493800000⟩,
  ⟨14029275810552158717000, 933966471293633526680000, 2101059247050334200000000⟩,
  ⟨8544121114967038284000, 1392968201185850463100000, 417966366511481543510000⟩,
  ⟨8544121114967038284000, 8189065432302667924000000, 1392968201185850740700000⟩,
  ⟨8544121114967038284000, 417966366511482445570000, 8189065432302669034200000⟩,
  ⟨8544121114967038284000, 8189065432302667924000000, 417966366511481543510000⟩,
  ⟨8544121114967038284000, 1392968201185851295800000, 8189065432302669034200000⟩,
  ⟨8544121114967038284000, 417966366511479531230000, 1392968201185853793800000⟩,
  ⟨7417634716093389219600, 703820539127592015300000, 493573118928612927790000⟩,
  ⟨7417634716093389219600, 8802606341943794987500000, 703820539127591598970000⟩,
  ⟨7417634716093389219600, 493573118928615217630000, 8802606341943794987500000⟩,
  ⟨7417634716093389219600, 8802606341943796097700000, 493573118928612927790000⟩,
  ⟨7417634716093389219600, 703820539127592570420000, 8802606341943796097700000⟩,
  ⟨7417634716093389219600, 493573118928610915510000, 703820539127595068420000⟩,
  ⟨8256981786395692097400, 4903268692484512025800000, 193462615030975601530000⟩,
  ⟨8256981786395692097400, 4903268692484512580900000, 4903268692484513136000000⟩,
  ⟨8256981786395692097400, 193462615030975115800000, 4903268692484514246200000⟩,
  ⟨21270972166203003587000, 3726064881564939979000000, 1528141070121611377900000⟩,
  ⟨21270972166203003587000, 4745794048313448643100000, 3726064881564940534100000⟩,
  ⟨21270972166203003587000, 1528141070121610545200000, 4745794048313450308500000⟩,
  ⟨21270972166203003587000, 4745794048313448643100000, 1528141070121611377900000⟩,
  ⟨21270972166203003587000, 3726064881564939979000000, 4745794048313449198200000⟩,
  ⟨21270972166203003587000, 1528141070121610267700000, 3726064881564942199400000⟩,
  ⟨10988997933591897280000, 1479157172776440765100000, 651154299306215683660000⟩,
  ⟨10988997933591897280000, 7869688527917342302200000, 1479157172776441042700000⟩,
  ⟨10988997933591897280000, 651154299306216377550000, 7869688527917344522700000⟩,
  ⟨10988997933591897280000, 7869688527917343412500000, 651154299306215683660000⟩,
  ⟨10988997933591897280000, 1479157172776441875300000, 7869688527917344522700000⟩,
  ⟨10988997933591897280000, 651154299306213185660000, 1479157172776443818200000⟩,
  ⟨7742909739458190285600, 2140246435816436920700000, 234621431760208033760000⟩,
  ⟨7742909739458190285600, 7625132132423354525100000, 2140246435816436920700000⟩,
  ⟨7742909739458190285600, 234621431760209109290000, 7625132132423355635400000⟩,
  ⟨7742909739458190285600, 7625132132423354525100000, 234621431760208033760000⟩,
  ⟨7742909739458190285600, 2140246435816437475800000, 7625132132423355635400000⟩,
  ⟨7742909739458190285600, 234621431760205778620000, 2140246435816439696300000⟩,
  ⟨13016402650767849164000, 3302674030581440045600000, 520322782344110751350000⟩,
  ⟨13016402650767849164000, 6177003187074449064300000, 3302674030581440045600000⟩,
  ⟨13016402650767849164000, 520322782344110890130000, 6177003187074451284700000⟩,
  ⟨13016402650767849164000, 6177003187074449064300000, 520322782344110751350000⟩,
  ⟨13016402650767849164000, 3302674030581440600700000, 6177003187074450174500000⟩,
  ⟨13016402650767849164000, 520322782344109502350000, 3302674030581442266000000⟩,
  ⟨2330851320516272372000, 3699848635444039080000000, 14945191055323262929000⟩,
  ⟨2330851320516272372000, 6285206173500637039100000, 3699848635444039635100000⟩,
  ⟨2330851320516272372000, 14945191055323325813000, 6285206173500639259500000⟩,
  ⟨2330851320516272372000, 6285206173500638149300000, 14945191055323262929000⟩,
  ⟨2330851320516272372000, 3699848635444039080000000, 6285206173500638149300000⟩,
  ⟨2330851320516272372000, 14945191055321938034000, 3699848635444041300400000⟩,
  ⟨3287885781867563362600, 675115690433361337330000, 120437469347925395210000⟩,
  ⟨3287885781867563362600, 9204446840218712955200000, 675115690433360921000000⟩,
  ⟨3287885781867563362600, 120437469347927095240000, 9204446840218714065400000⟩,
  ⟨3287885781867563362600, 9204446840218714065400000, 120437469347925395210000⟩,
  ⟨3287885781867563362600, 675115690433362170000000, 9204446840218714065400000⟩,
  ⟨3287885781867563362600, 120437469347922654350000, 675115690433364390440000⟩,
  ⟨13932327047496862338000, 4370988411800967310400000, 566847855434612496460000⟩,
  ⟨13932327047496862338000, 5062163732764419776800000, 4370988411800967865500000⟩,
  ⟨13932327047496862338000, 566847855434612357680000, 5062163732764421997200000⟩,
  ⟨13932327047496862338000, 5062163732764419776800000, 566847855434612496460000⟩,
  ⟨13932327047496862338000, 4370988411800968420600000, 5062163732764420887000000⟩,
  ⟨13932327047496862338000, 566847855434611247460000, 4370988411800970086000000⟩,
  ⟨21295483390957352030000, 4225871685075206496400000, 1548256629849587562300000⟩,
  ⟨21295483390957352030000, 4225871685075206496400000, 4225871685075207051500000⟩,
  ⟨21295483390957352030000, 1548256629849586174500000, 4225871685075208161700000⟩,
  ⟨20648284765708430077000, 4145122211577852988600000, 1148601420448157051100000⟩,
  ⟨20648284765708430077000, 4706276367973990515400000, 4145122211577854098900000⟩,
  ⟨20648284765708430077000, 1148601420448156496000000, 4706276367973991625600000⟩,
  ⟨20648284765708430077000, 4706276367973990515400000, 1148601420448157051100000⟩,
  ⟨20648284765708430077000, 4145122211577852988600000, 4706276367973991070500000⟩,
  ⟨20648284765708430077000, 1148601420448155940900000, 4145122211577855209100000⟩,
  ⟨10771414586637324210000, 3623805122689274238500000, 312648361867088886430000⟩,
  ⟨10771414586637324210000, 6063546515443636320000000, 3623805122689275348700000⟩,
  ⟨10771414586637324210000, 312648361867088331320000, 6063546515443638540400000⟩,
  ⟨10771414586637324210000, 6063546515443636320000000, 312648361867088886430000⟩,
  ⟨10771414586637324210000, 3623805122689274793600000, 6063546515443637430200000⟩,
  ⟨10771414586637324210000, 312648361867088053770000, 3623805122689277014000000⟩,
  ⟨17379761008355447925000, 3122512855112035135000000, 1022466401455417589500000⟩,
  ⟨17379761008355447925000, 5855020743432547414300000, 3122512855112035690100000⟩,
  ⟨17379761008355447925000, 1022466401455416895600000, 5855020743432549634700000⟩,
  ⟨17379761008355447925000, 5855020743432547414300000, 1022466401455417589500000⟩,
  ⟨17379761008355447925000, 3122512855112035135000000, 5855020743432548524500000⟩,
  ⟨17379761008355447925000, 1022466401455416340500000, 3122512855112037355500000⟩,
  ⟨12121399787049466114000, 4805756764340300413200000, 388486471319398965480000⟩,
  ⟨12121399787049466114000, 4805756764340300968300000, 4805756764340300968300000⟩,
  ⟨12121399787049466114000, 388486471319398340980000, 4805756764340302633600000⟩,
  ⟨13533071271985476925000, 3926893217036878658300000, 483493018730729307020000⟩,
  ⟨13533071271985476925000, 5589613764232391757100000, 3926893217036879768500000⟩,
  ⟨13533071271985476925000, 483493018730729029460000, 5589613764232393977600000⟩,
  ⟨13533071271985476925000, 5589613764232391757100000, 483493018730729307020000⟩,
  ⟨13533071271985476925000, 3926893217036879768500000, 5589613764232392867400000⟩,
  ⟨13533071271985476925000, 483493018730728196800000, 3926893217036881433800000⟩,
  ⟨1928896434910634563400, 260638541622880276490000, 99795769296426584116000⟩,
  ⟨1928896434910634563400, 9639565689080692445500000, 260638541622880241800000⟩,
  ⟨1928896434910634563400, 99795769296427416784000, 9639565689080694665900000⟩,
  ⟨1928896434910634563400, 9639565689080693555700000, 99795769296426584116000⟩,
  ⟨1928896434910634563400, 260638541622881247940000, 9639565689080694665900000⟩,
  ⟨1928896434910634563400, 99795769296423808559000, 260638541622883468380000⟩,
  ⟨17198332146128097672000, 3983909958449554089600000, 839129407699283902390000⟩,
  ⟨17198332146128097672000, 5176960633851162008100000, 3983909958449555199800000⟩,
  ⟨17198332146128097672000, 839129407699283347280000, 5176960633851163118300000⟩,
  ⟨17198332146128097672000, 5176960633851162008100000, 839129407699283902390000⟩,
  ⟨17198332146128097672000, 3983909958449554644700000, 5176960633851163118300000⟩,
  ⟨17198332146128097672000, 839129407699282792170000, 3983909958449556310000000⟩,
  ⟨2190134685451855045900, 458803913209149261120000, 67281317012842720149000⟩,
  ⟨2190134685451855045900, 9473914769778007949300000, 458803913209149399900000⟩,
  ⟨2190134685451855045900, 67281317012843899761000, 9473914769778009059600000⟩,
  ⟨2190134685451855045900, 9473914769778007949300000, 67281317012842720149000⟩,
  ⟨2190134685451855045900, 458803913209150371340000, 9473914769778009059600000⟩,
  ⟨2190134685451855045900, 67281317012839840508000, 458803913209152938730000⟩,
  ⟨22030072639051346065000, 2510983078651668476400000, 1773080248323684604600000⟩,
  ⟨22030072639051346065000, 5715936673024646363900000, 2510983078651669031500000⟩,
  ⟨22030072639051346065000, 1773080248323684604600000, 5715936673024648584400000⟩,
  ⟨22030072639051346065000, 5715936673024647474200000, 1773080248323684604600000⟩,
  ⟨22030072639051346065000, 2510983078651668476400000, 5715936673024648584400000⟩,
  ⟨22030072639051346065000, 1773080248323682384100000, 2510983078651670696900000⟩,
  ⟨10087504042276889630000, 1831369339346112235000000, 426840877350856129360000⟩,
  ⟨10087504042276889630000, 7741789783303032468400000, 1831369339346112512500000⟩,
  ⟨10087504042276889630000, 426840877350856406910000, 7741789783303033578600000⟩,
  ⟨10087504042276889630000, 7741789783303031358100000, 426840877350856129360000⟩,
  ⟨10087504042276889630000, 1831369339346113345200000, 7741789783303031358100000⟩,
  ⟨10087504042276889630000, 426840877350854602800000, 1831369339346115288100000⟩,
  ⟨16191393022748274723000, 3540463032783623398300000, 743927680400381513560000⟩,
  ⟨16191393022748274723000, 5715609286815994671800000, 3540463032783623953400000⟩,
  ⟨16191393022748274723000, 743927680400380819670000, 5715609286815998002500000⟩,
  ⟨16191393022748274723000, 5715609286815994671800000, 743927680400381513560000⟩,
  ⟨16191393022748274723000, 3540463032783622843200000, 5715609286815996892300000⟩,
  ⟨16191393022748274723000, 743927680400380264560000, 3540463032783625063600000⟩,
  ⟨23331053995969863908000, 2992109871101671370000000, 2435689477970363059400000⟩,
  ⟨23331053995969863908000, 4572200650927965015500000, 2992109871101672480300000⟩,
  ⟨23331053995969863908000, 2435689477970362504200000, 4572200650927966680800000⟩,
  ⟨23331053995969863908000, 4572200650927966125700000, 2435689477970363059400000⟩,
  ⟨23331053995969863908000, 2992109871101671370000000, 4572200650927966680800000⟩,
  ⟨23331053995969863908000, 2435689477970361671600000, 2992109871101673035400000⟩,
  ⟨15796129088774364061000, 2908392329854116442600000, 763915697459878195730000⟩,
  ⟨15796129088774364061000, 6327691972686005916800000, 2908392329854116997700000⟩,
  ⟨15796129088774364061000, 763915697459878195730000, 6327691972686007027000000⟩,
  ⟨15796129088774364061000, 6327691972686004806500000, 763915697459878195730000⟩,
  ⟨15796129088774364061000, 2908392329854117552800000, 6327691972686005916800000⟩,
  ⟨15796129088774364061000, 763915697459876807950000, 2908392329854118663100000⟩,
  ⟨17367922592231238924000, 1861461318533069730900000, 1242245896688861372900000⟩,
  ⟨17367922592231238924000, 6896292784778068618600000, 1861461318533070286000000⟩,
  ⟨17367922592231238924000, 1242245896688861650500000, 6896292784778069728800000⟩,
  ⟨17367922592231238924000, 6896292784778068618600000, 1242245896688861372900000⟩,
  ⟨17367922592231238924000, 1861461318533070286000000, 6896292784778069728800000⟩,
  ⟨17367922592231238924000, 1242245896688859568800000, 1861461318533072784000000⟩,
  ⟨4476964402048990939800, 1336271749712246159600000, 97790083705655301421000⟩,
  ⟨4476964402048990939800, 8565938166582098833900000, 1336271749712245882100000⟩,
  ⟨4476964402048990939800, 97790083705656116742000, 8565938166582099944100000⟩,
  ⟨4476964402048990939800, 8565938166582098833900000, 97790083705655301421000⟩,
  ⟨4476964402048990939800, 1336271749712247825000000, 8565938166582098833900000⟩,
  ⟨4476964402048990939800, 97790083705652369739000, 1336271749712249767800000⟩,
  ⟨5402392418126887715600, 689763351482116093830000, 279432020481641396610000⟩,
  ⟨5402392418126887715600, 9030804628036241954400000, 689763351482116093830000⟩,
  ⟨5402392418126887715600, 279432020481642506840000, 9030804628036244174900000⟩,
  ⟨5402392418126887715600, 9030804628036241954400000, 279432020481641396610000⟩,
  ⟨5402392418126887715600, 689763351482116648940000, 9030804628036244174900000⟩,
  ⟨5402392418126887715600, 279432020481638829220000, 689763351482119563270000⟩,
  ⟨9064872245549718222600, 2614910192698080004800000, 248082685108521189270000⟩,
  ⟨9064872245549718222600, 7137007122193398389600000, 2614910192698080559900000⟩,
  ⟨9064872245549718222600, 248082685108521605600000, 7137007122193399499800000⟩,
  ⟨9064872245549718222600, 7137007122193398389600000, 248082685108521189270000⟩,
  ⟨9064872245549718222600, 2614910192698081115000000, 7137007122193399499800000⟩,
  ⟨9064872245549718222600, 248082685108519940260000, 2614910192698083335500000⟩,
  ⟨3825785652431659212100, 439794560591167671420000, 211260004278838765810000⟩,
  ⟨3825785652431659212100, 9348945435129992764800000, 439794560591167324470000⟩,
  ⟨3825785652431659212100, 211260004278840396450000, 9348945435129994985200000⟩,
  ⟨3825785652431659212100, 9348945435129992764800000, 211260004278838765810000⟩,
  ⟨3825785652431659212100, 439794560591168504080000, 9348945435129994985200000⟩,
  ⟨3825785652431659212100, 211260004278835782090000, 439794560591170516360000⟩,
  ⟨14288408521395195520000, 2469572317073107647900000, 681498702540452999670000⟩,
  ⟨14288408521395195520000, 6848928980386439491200000, 2469572317073107370300000⟩,
  ⟨14288408521395195520000, 681498702540452860890000, 6848928980386441711700000⟩,
  ⟨14288408521395195520000, 6848928980386439491200000, 681498702540452999670000⟩,
  ⟨14288408521395195520000, 2469572317073108203000000, 6848928980386440601400000⟩,
  ⟨14288408521395195520000, 681498702540451750660000, 2469572317073109868300000⟩,
  ⟨13279060452758455809000, 1916073029798411320200000, 687953069004346856600000⟩,
  ⟨13279060452758455809000, 7395973901197242517100000, 1916073029798411320200000⟩,
  ⟨13279060452758455809000, 687953069004346717820000, 7395973901197243627300000⟩,
  ⟨13279060452758455809000, 7395973901197241406900000, 687953069004346856600000⟩,
  ⟨13279060452758455809000, 1916073029798412430400000, 7395973901197242517100000⟩,
  ⟨13279060452758455809000, 687953069004344774930000, 1916073029798414650800000⟩,
  ⟨22387188105532284874000, 3173959823085312770300000, 1563534771200214557000000⟩,
  ⟨22387188105532284874000, 5262505405714472672700000, 3173959823085313325400000⟩,
  ⟨22387188105532284874000, 1563534771200214001900000, 5262505405714474893100000⟩,
  ⟨22387188105532284874000, 5262505405714472672700000, 1563534771200214557000000⟩,
  ⟨22387188105532284874000, 3173959823085312215200000, 5262505405714473782900000⟩,
  ⟨22387188105532284874000, 1563534771200213446800000, 3173959823085314990700000⟩,
  ⟨8267586306367168125200, 3938393062998427063300000, 157887711356747735550000⟩,
  ⟨8267586306367168125200, 5903719225644824542000000, 3938393062998428173500000⟩,
  ⟨8267586306367168125200, 157887711356747284520000, 5903719225644826762400000⟩,
  ⟨8267586306367168125200, 5903719225644824542000000, 157887711356747735550000⟩,
  ⟨8267586306367168125200, 3938393062998427618400000, 5903719225644825652200000⟩,
  ⟨8267586306367168125200, 157887711356746729410000, 3938393062998429838800000⟩,
  ⟨9724948178572703685200, 3181446682127856973000000, 234464079672303087050000⟩,
  ⟨9724948178572703685200, 6584089238199839488900000, 3181446682127857528100000⟩,
  ⟨9724948178572703685200, 234464079672302982970000, 6584089238199841709300000⟩,
  ⟨9724948178572703685200, 6584089238199840599100000, 234464079672303087050000⟩,
  ⟨9724948178572703685200, 3181446682127858083300000, 6584089238199840599100000⟩,
  ⟨9724948178572703685200, 234464079672301872750000, 3181446682127859748600000⟩,
  ⟨20272587903587685476000, 2803644875579968109800000, 1359298134713861905300000⟩,
  ⟨20272587903587685476000, 5837056989706169707300000, 2803644875579968665000000⟩,
  ⟨20272587903587685476000, 1359298134713861627700000, 5837056989706171927800000⟩,
  ⟨20272587903587685476000, 5837056989706169707300000, 1359298134713861905300000⟩,
  ⟨20272587903587685476000, 2803644875579967554700000, 5837056989706171927800000⟩,
  ⟨20272587903587685476000, 1359298134713860517500000, 2803644875579970330300000⟩,
  ⟨11735985049339679905000, 2299757300841566709500000, 446955970130420640610000⟩,
  ⟨11735985049339679905000, 7253286729028012302900000, 2299757300841566709500000⟩,
  ⟨11735985049339679905000, 446955970130421542660000, 7253286729028013413200000⟩,
  ⟨11735985049339679905000, 7253286729028012302900000, 446955970130420640610000⟩,
  ⟨11735985049339679905000, 2299757300841566709500000, 7253286729028013413200000⟩,
  ⟨11735985049339679905000, 446955970130419322220000, 2299757300841569485100000⟩,
  ⟨27098983409457647574000, 3494881250371350556200000, 2460562506891596223900000⟩,
  ⟨27098983409457647574000, 4044556242737054052600000, 3494881250371351111300000⟩,
  ⟨27098983409457647574000, 2460562506891594836100000, 4044556242737055162800000⟩,
  ⟨27098983409457647574000, 4044556242737053497500000, 2460562506891596223900000⟩,
  ⟨27098983409457647574000, 3494881250371350556200000, 4044556242737055162800000⟩,
  ⟨27098983409457647574000, 2460562506891595113700000, 3494881250371351666400000⟩,
  ⟨4107095577780862385100, 964083579062224721450000, 107634727377168594450000⟩,
  ⟨4107095577780862385100, 8928281693560605747400000, 964083579062224860220000⟩,
  ⟨4107095577780862385100, 107634727377169392430000, 8928281693560609078000000⟩,
  ⟨4107095577780862385100, 8928281693560606857600000, 107634727377168594450000⟩,
  ⟨4107095577780862385100, 964083579062224860220000, 8928281693560609078000000⟩,
  ⟨4107095577780862385100, 107634727377166131150000, 964083579062228052110000⟩,
  ⟨6665615373909821676100, 1003380079665995849900000, 267977697259694711000000⟩,
  ⟨6665615373909821676100, 8728642223074308814600000, 1003380079665995711100000⟩,
  ⟨6665615373909821676100, 267977697259695890610000, 8728642223074309924900000⟩,
  ⟨6665615373909821676100, 8728642223074309924900000, 267977697259694711000000⟩,
  ⟨6665615373909821676100, 1003380079665996405000000, 8728642223074309924900000⟩,
  ⟨6665615373909821676100, 267977697259692282380000, 1003380079665999180500000⟩,
  ⟨23363011519203407199000, 2894378430839789073700000, 1999016566395392935400000⟩,
  ⟨23363011519203407199000, 5106605002764817991000000, 2894378430839789628800000⟩,
  ⟨23363011519203407199000, 1999016566395392935400000, 5106605002764819101200000⟩,
  ⟨23363011519203407199000, 5106605002764817991000000, 1999016566395392935400000⟩,
  ⟨23363011519203407199000, 2894378430839789073700000, 5106605002764819101200000⟩,
  ⟨23363011519203407199000, 1999016566395391547600000, 2894378430839790739000000⟩,
  ⟨17913556055310531512000, 4595867718244118771400000, 808264563511763012290000⟩,
  ⟨17913556055310531512000, 4595867718244118771400000, 4595867718244119326500000⟩,
  ⟨17913556055310531512000, 808264563511762179630000, 4595867718244120436700000⟩,
  ⟨5236746221755124051600, 1786164539550919028200000, 96597928476049692292000⟩,
  ⟨5236746221755124051600, 8117237531973030551000000, 1786164539550919028200000⟩,
  ⟨5236746221755124051600, 96597928476050420876000, 8117237531973032771400000⟩,
  ⟨5236746221755124051600, 8117237531973031661200000, 96597928476049692292000⟩,
  ⟨5236746221755124051600, 1786164539550919028200000, 8117237531973032771400000⟩,
  ⟨5236746221755124051600, 96597928476047506541000, 1786164539550922081300000⟩,
  ⟨13897994002223313433000, 1133332341350742483700000, 1133332341350745398100000⟩,
  ⟨13897994002223313433000, 7733335317298510869200000, 1133332341350742761300000⟩,
  ⟨13897994002223313433000, 1133332341350745675600000, 7733335317298513089700000⟩,
  ⟨12785064104470678266000, 2861539226312519446100000, 436162890256223956250000⟩,
  ⟨12785064104470678266000, 6702297883431256320100000, 2861539226312520001200000⟩,
  ⟨12785064104470678266000, 436162890256224788920000, 6702297883431257430300000⟩,
  ⟨12785064104470678266000, 6702297883431256320100000, 436162890256223956250000⟩,
  ⟨12785064104470678266000, 2861539226312520556300000, 6702297883431256320100000⟩,
  ⟨12785064104470678266000, 436162890256222013360000, 2861539226312522776800000⟩,
  ⟨5768829640657227846700, 2293288959608979216100000, 96337955497693660012000⟩,
  ⟨5768829640657227846700, 7610373084893327089200000, 2293288959608979216100000⟩,
  ⟨5768829640657227846700, 96337955497693972262000, 7610373084893329309600000⟩,
  ⟨5768829640657227846700, 7610373084893327089200000, 96337955497693660012000⟩,
  ⟨5768829640657227846700, 2293288959608978938600000, 7610373084893329309600000⟩,
  ⟨5768829640657227846700, 96337955497691751816000, 2293288959608982269200000⟩,
  ⟨21118787915445271647000, 3542128961664715580700000, 1164570021517526005100000⟩,
  ⟨21118787915445271647000, 5293301016817758553000000, 3542128961664716690900000⟩,
  ⟨21118787915445271647000, 1164570021517525311200000, 5293301016817760773500000⟩,
  ⟨21118787915445271647000, 5293301016817758553000000, 1164570021517526005100000⟩,
  ⟨21118787915445271647000, 3542128961664715580700000, 5293301016817759663300000⟩,
  ⟨21118787915445271647000, 1164570021517524478500000, 3542128961664718356200000⟩,
  ⟨6687087572515483134200, 3449444915449853543700000, 94768771491044508787000⟩,
  ⟨6687087572515483134200, 6455786313059101999600000, 3449444915449854098800000⟩,
  ⟨6687087572515483134200, 94768771491044456745000, 6455786313059104220000000⟩,
  ⟨6687087572515483134200, 6455786313059100889300000, 94768771491044508787000⟩,
  ⟨6687087572515483134200, 3449444915449854098800000, 6455786313059101999600000⟩,
  ⟨6687087572515483134200, 94768771491043068966000, 3449444915449856874400000⟩,
  ⟨11907116522871035672000, 4316732308235538551100000, 279666162959972923460000⟩,
  ⟨11907116522871035672000, 5403601528804488074400000, 4316732308235539661300000⟩,
  ⟨11907116522871035672000, 279666162959971709160000, 5403601528804491405100000⟩,
  ⟨11907116522871035672000, 5403601528804488074400000, 279666162959972923460000⟩,
  ⟨11907116522871035672000, 4316732308235539106200000, 5403601528804489184700000⟩,
  ⟨11907116522871035672000, 279666162959971709160000, 4316732308235541326600000⟩,
  ⟨21414262260095202201000, 2207972237518396052500000, 1472658441967969467100000⟩,
  ⟨21414262260095202201000, 6319369320513634757900000, 2207972237518396607700000⟩,
  ⟨21414262260095202201000, 1472658441967969467100000, 6319369320513635868200000⟩,
  ⟨21414262260095202201000, 6319369320513634757900000, 1472658441967969467100000⟩,
  ⟨21414262260095202201000, 2207972237518396885200000, 6319369320513635868200000⟩,
  ⟨21414262260095202201000, 1472658441967967246600000, 2207972237518398273000000⟩,
  ⟨1499760934574033443600, 109390130646629217540000, 109390130646631958400000⟩,
  ⟨1499760934574033443600, 9781219738706737887300000, 109390130646628749160000⟩,
  ⟨1499760934574033443600, 109390130646633831900000, 9781219738706741218000000⟩,
  ⟨2203469792688208530500, 1531728350976843122700000, 18705669110342494979000⟩,
  ⟨2203469792688208530500, 8449565979912814217600000, 1531728350976843122700000⟩,
  ⟨2203469792688208530500, 18705669110343214889000, 8449565979912816438000000⟩,
  ⟨2203469792688208530500, 8449565979912815327800000, 18705669110342494979000⟩,
  ⟨2203469792688208530500, 1531728350976843122700000, 8449565979912816438000000⟩,
  ⟨2203469792688208530500, 18705669110340022998000, 1531728350976846175800000⟩,
  ⟨10339358335398870017000, 786463619513996653470000, 786463619513999845360000⟩,
  ⟨10339358335398870017000, 8427072760972003084800000, 786463619513997069800000⟩,
  ⟨10339358335398870017000, 786463619513999567800000, 8427072760972005305300000⟩,
  ⟨578226288753999189420, 91986167658109178891000, 20671401785266950261000⟩,
  ⟨578226288753999189420, 9887342430556622652200000, 91986167658108242140000⟩,
  ⟨578226288753999189420, 20671401785268828100000, 9887342430556625982900000⟩,
  ⟨578226288753999189420, 9887342430556623762400000, 20671401785266950261000⟩,
  ⟨578226288753999189420, 91986167658109629919000, 9887342430556625982900000⟩,
  ⟨578226288753999189420, 20671401785264222409000, 91986167658112735074000⟩,
  ⟨912125509019910923720, 235452342574103377910000, 20063808420237683010000⟩,
  ⟨912125509019910923720, 9744483849005658449000000, 235452342574102892190000⟩,
  ⟨912125509019910923720, 20063808420239248598000, 9744483849005660669500000⟩,
  ⟨912125509019910923720, 9744483849005658449000000, 20063808420237683010000⟩,
  ⟨912125509019910923720, 235452342574103967720000, 9744483849005660669500000⟩,
  ⟨912125509019910923720, 20063808420234773011000, 235452342574107367780000⟩,
  ⟨25675579236343845126000, 3457284797184661528900000, 1965919922795323904200000⟩,
  ⟨25675579236343845126000, 4576795280020014566900000, 3457284797184662084000000⟩,
  ⟨25675579236343845126000, 1965919922795323071500000, 4576795280020015677100000⟩,
  ⟨25675579236343845126000, 4576795280020014566900000, 1965919922795323904200000⟩,
  ⟨25675579236343845126000, 3457284797184662084000000, 4576795280020015677100000⟩,
  ⟨25675579236343845126000, 1965919922795322516400000, 3457284797184663749400000⟩,
  ⟨19525278550773259110000, 2501693088121573205200000, 1074788661022306607300000⟩,
  ⟨19525278550773259110000, 6423518250856120603800000, 2501693088121573205200000⟩,
  ⟨19525278550773259110000, 1074788661022306746100000, 6423518250856121714100000⟩,
  ⟨19525278550773259110000, 6423518250856120603800000, 1074788661022306607300000⟩,
  ⟨19525278550773259110000, 2501693088121574315400000, 6423518250856120603800000⟩,
  ⟨19525278550773259110000, 1074788661022305358300000, 2501693088121575425700000⟩,
  ⟨2641087799169534880800, 2555498626016329266600000, 18618093532656791560000⟩,
  ⟨2641087799169534880800, 7425883280451013313000000, 2555498626016329266600000⟩,
  ⟨2641087799169534880800, 18618093532657420397000, 7425883280451015533400000⟩,
  ⟨2641087799169534880800, 7425883280451014423200000, 18618093532656791560000⟩,
  ⟨2641087799169534880800, 2555498626016329266600000, 7425883280451015533400000⟩,
  ⟨2641087799169534880800, 18618093532654922395000, 2555498626016332042200000⟩,
  ⟨9495317379235290169600, 1032934352626249940900000, 502072925915596976480000⟩,
  ⟨9495317379235290169600, 8464992721458153290800000, 1032934352626250079600000⟩,
  ⟨9495317379235290169600, 502072925915597600980000, 8464992721458154401000000⟩,
  ⟨9495317379235290169600, 8464992721458153290800000, 502072925915596976480000⟩,
  ⟨9495317379235290169600, 1032934352626250773500000, 8464992721458154401000000⟩,
  ⟨9495317379235290169600, 502072925915594756030000, 1032934352626253687900000⟩,
  ⟨20138554942591554639000, 1702588823641313364700000, 1702588823641315585200000⟩,
  ⟨20138554942591554639000, 6594822352717371050100000, 1702588823641313919800000⟩,
  ⟨20138554942591554639000, 1702588823641316140300000, 6594822352717372160300000⟩,
  ⟨11670296560818487711000, 1134827791905402005800000, 790987667568746055660000⟩,
  ⟨11670296560818487711000, 8074184540525851661000000, 1134827791905402144500000⟩,
  ⟨11670296560818487711000, 790987667568747165880000, 8074184540525852771300000⟩,
  ⟨11670296560818487711000, 8074184540525852771300000, 790987667568746055660000⟩,
  ⟨11670296560818487711000, 1134827791905402838400000, 8074184540525852771300000⟩,
  ⟨11670296560818487711000, 790987667568743835210000, 1134827791905404920100000⟩,
  ⟨2413353389898448405800, 2020015191395728437800000, 18288696800151126899000⟩,
  ⟨2413353389898448405800, 7961696111804120734600000, 2020015191395728437800000⟩,
  ⟨2413353389898448405800, 18288696800152215438000, 7961696111804120734600000⟩,
  ⟨2413353389898448405800, 7961696111804120734600000, 18288696800151126899000⟩,
  ⟨2413353389898448405800, 2020015191395729270400000, 7961696111804120734600000⟩,
  ⟨2413353389898448405800, 18288696800149439881000, 2020015191395730935800000⟩,
  ⟨22853369445630898615000, 1996334593368171150800000, 1996334593368173648800000⟩,
  ⟨22853369445630898615000, 6007330813263654922800000, 1996334593368171983500000⟩,
  ⟨22853369445630898615000, 1996334593368173093700000, 6007330813263656033000000⟩,
  ⟨16245097246606987444000, 1554072933416661417300000, 974984606749395160690000⟩,
  ⟨16245097246606987444000, 7470942459833943560800000, 1554072933416661972400000⟩,
  ⟨16245097246606987444000, 974984606749395577020000, 7470942459833944671000000⟩,
  ⟨16245097246606987444000, 7470942459833943560800000, 974984606749395160690000⟩,
  ⟨16245097246606987444000, 1554072933416662527500000, 7470942459833944671000000⟩,
  ⟨16245097246606987444000, 974984606749393079020000, 1554072933416664192800000⟩,
  ⟨6598834583838261193300, 2837331258499087849300000, 102710427379365670800000⟩,
  ⟨6598834583838261193300, 7059958314121547173800000, 2837331258499087849300000⟩,
  ⟨6598834583838261193300, 102710427379365532020000, 7059958314121549394200000⟩,
  ⟨6598834583838261193300, 7059958314121546063500000, 102710427379365670800000⟩,
  ⟨6598834583838261193300, 2837331258499087294200000, 7059958314121548284000000⟩,
  ⟨6598834583838261193300, 102710427379363866680000, 2837331258499090624900000⟩,
  ⟨25826779637269365979000, 4006689325488300146300000, 1986621349023399707400000⟩,
  ⟨25826779637269365979000, 4006689325488299591200000, 4006689325488301256500000⟩,
  ⟨25826779637269365979000, 1986621349023398597200000, 4006689325488301811600000⟩,
  ⟨17426316767263280976000, 1406138740563841471600000, 1406138740563843969600000⟩,
  ⟨17426316767263280976000, 7187722518872314836400000, 1406138740563842026700000⟩,
  ⟨17426316767263280976000, 1406138740563844247200000, 7187722518872315946600000⟩,
  ⟨1983646305222064678600, 1101376107119610980900000, 19450667745236705289000⟩,
  ⟨1983646305222064678600, 8879173225135151836800000, 1101376107119610703300000⟩,
  ⟨1983646305222064678600, 19450667745238292561000, 8879173225135152947000000⟩,
  ⟨1983646305222064678600, 8879173225135151836800000, 19450667745236705289000⟩,
  ⟨1983646305222064678600, 1101376107119611536000000, 8879173225135152947000000⟩,
  ⟨1983646305222064678600, 19450667745234198613000, 1101376107119614172800000⟩,
  ⟨29284072269592262110000, 3511903644454155148900000, 2976192711091689702100000⟩,
  ⟨29284072269592262110000, 3511903644454155148900000, 3511903644454156814300000⟩,
  ⟨29284072269592262110000, 2976192711091688591900000, 3511903644454156814300000⟩,
  ⟨5994743919192241929700, 422503625151379735850000, 422503625151382580790000⟩,
  ⟨5994743919192241929700, 9154992749697237197600000, 422503625151379388900000⟩,
  ⟨5994743919192241929700, 422503625151383621630000, 9154992749697239418100000⟩,
  ⟨2927967205105672316200, 3116269863962923825100000, 20127149292621213279000⟩,
  ⟨2927967205105672316200, 6863602986744454792500000, 3116269863962923825100000⟩,
  ⟨2927967205105672316200, 20127149292621937526000, 6863602986744455902700000⟩,
  ⟨2927967205105672316200, 6863602986744454792500000, 20127149292621213279000⟩,
  ⟨2927967205105672316200, 3116269863962924380200000, 6863602986744455902700000⟩,
  ⟨2927967205105672316200, 20127149292620272192000, 3116269863962926045500000⟩,
  ⟨3746610270526053100700, 4986838983120579493800000, 26322033758841506881000⟩,
  ⟨3746610270526053100700, 4986838983120579493800000, 4986838983120580048900000⟩,
  ⟨3746610270526053100700, 26322033758840457374000, 4986838983120581714200000⟩,
  ⟨7003874423755923357000, 4560656275499565537300000, 98798242146206152747000⟩,
  ⟨7003874423755923357000, 5340545482354228656900000, 4560656275499566647500000⟩,
  ⟨7003874423755923357000, 98798242146205250691000, 5340545482354230877300000⟩,
  ⟨7003874423755923357000, 5340545482354228656900000, 98798242146206152747000⟩,
  ⟨7003874423755923357000, 4560656275499565537300000, 5340545482354229767100000⟩,
  ⟨7003874423755923357000, 98798242146205528247000, 4560656275499567757800000⟩,
  ⟨28868194517961544114000, 2964798675129708960300000, 2964798675129710625600000⟩,
  ⟨28868194517961544114000, 4070402649740580969300000, 2964798675129710070500000⟩,
  ⟨28868194517961544114000, 2964798675129709515400000, 4070402649740581524400000⟩,
  ⟨1852527744070860723600, 740590746798509141910000, 22261525470100560799000⟩,
  ⟨1852527744070860723600, 9237147727731390700600000, 740590746798509141910000⟩,
  ⟨1852527744070860723600, 22261525470101961588000, 9237147727731390700600000⟩,
  ⟨1852527744070860723600, 9237147727731390700600000, 22261525470100560799000⟩,
  ⟨1852527744070860723600, 740590746798510113360000, 9237147727731390700600000⟩,
  ⟨1852527744070860723600, 22261525470098145196000, 740590746798512750140000⟩]

end Verif
