/-!
# The numbers in `resistance_scalars/scalars_general_resistance_d.npy`

The file holds `11 × 2 × 38 × 5` floating-point numbers. Each of them is an integer divided by `2 ^ 78`; the
integers are listed here, exactly. (`scalars_general_resistance_d.txt` next to it shows the same numbers to
nine digits.) This file is generated from the bytes of the `.npy` file.
-/

set_option autoImplicit false

namespace SD

/-- A number of the file that is not negative. -/
local macro "pos " n:num : term => `(Int.ofNat (nat_lit $n))

/-- A negative number of the file. -/
local macro "neg " n:num : term => `(Int.negOfNat (nat_lit $n))

/-- `XYZ_raw[k, g, n, 0]` times `2 ^ 78`, for the size ratio 1/100: list `n` belongs to row `n` of
`values_of_s_dash.txt` and has the eleven scalars for `g = 0` and then those for `g = 1`:
`resistance_scalars/data.py` lines 26-33, `resistance_scalars/scalars_general_resistance_d.npy`. -/
def shipped_1_100 : List (List Int) := [
  [pos 5871479418700126517985280, pos 11726872802949125373952, neg 17697928537830535987200,
   pos 58635836270313472, pos 8895525401818304610304, pos 8807572499030565055365120,
   pos 8716327012059079245824, pos 4380427289474737635328, pos 3523168288753577030057984,
   pos 5169187100369373626368, pos 128797986212806656, neg 5871483971065035905564672,
   neg 11754351747933952540672, pos 17737258398295590436864, neg 58849972684039936, pos 16070603248203485184,
   neg 8807573079534688691814400, neg 8735504510733646823424, pos 8590943614958170112,
   pos 35104394041084520431616, pos 74011219882540548096, neg 110670217629231936],
  [pos 2937616359631911749943296, pos 10639381221360663527424, neg 16054718370136388009984,
   pos 57878265376800768, pos 8067813273864788508672, pos 4406747902608132037148672,
   pos 7906696800074337353728, pos 3972679321202844499968, pos 1762826446485970923552768,
   pos 4686929637856719667200, pos 127906724597202944, neg 2937620911996822748135424,
   neg 10666860166345551511552, pos 16094048230601442459648, neg 58092401780127232, pos 14022353702669029376,
   neg 4406748483112254599856128, neg 7925874298748904931328, pos 7505587886103313408,
   pos 17513119508713957228544, pos 65668764895155200000, neg 109778955994878656],
  [pos 1176986157770608335650816, pos 9205322257200956047360, neg 13887952995635322421248,
   pos 55792727572348928, pos 6976434570432633372672, pos 1765763198735985097572352,
   pos 6838996757678936555520, pos 3434988880642626813952, pos 706416802934248305590272,
   pos 4050921501597986979840, pos 125453145944883200, neg 1176990710135518528536576,
   neg 9232801202185755951104, pos 13927282856100376870912, neg 56006864009636800, pos 11351803141027551232,
   neg 1765763779240107928715264, neg 6858174256353504133120, pos 6089910557245192192,
   pos 6964998180479741984768, pos 54749755973320220672, neg 107325377336785344],
  [pos 589868747480504291295232, pos 8125730273465351536640, neg 12256928766334347509760,
   pos 52606881423687680, pos 6154988014249493659648, pos 885057673767651144368128, pos 6035129629336175378432,
   pos 3030204466416640327680, pos 354122826734124610355200, pos 3572027416990451761152,
   pos 121705084282208256, neg 589873299845414215745536, neg 8153209218450182897664,
   pos 12296258626799401959424, neg 52821017858703616, pos 9386628388396736512, neg 885058254271773975511040,
   neg 6054307128010744004608, pos 5047303744736466944, pos 3454027050782992367616, pos 46651715179623817216,
   neg 103577315693164224],
  [pos 296097141020768998522880, pos 7054815490519668359168, neg 10639290007561829351424,
   pos 46753730929885184, pos 5340423786170243088384, pos 444371511724634741407744, pos 5237592878167537745920,
   pos 2628675325938375852032, pos 177836856567070455758848, pos 3096827786956411764736,
   pos 114819011333586944, neg 296101693385679090745344, neg 7082294435504459874304,
   pos 10678619868026883801088, neg 46967867341157824, pos 7512705959085962240, neg 444372092228757505441792,
   neg 5256770376842106372096, pos 4051653870664739328, pos 1702943471761189765120, pos 38822147676683427840,
   neg 96691242760003648],
  [pos 119533399206981235900416, pos 5665006711194767065088, neg 8540785073190082707456, pos 31066028813320192,
   pos 4284142148955647508480, pos 179489849272514866315264, pos 4202175177371128692736,
   pos 2107585453754262749184, pos 71869759877967058567168, pos 2479659862154348068864, pos 96362854969507840,
   neg 119537951571891311345664, neg 5692485656179592134656, pos 8580114933655137157120, neg 31280165200637312,
   pos 5307505027632003072, neg 179490429776637630349312, neg 4221352676045696794624, pos 2875437775682020352,
   pos 658265891427542630400, pos 29272243036359872512, neg 78235086409762048],
  [pos 60455204713949017669632, pos 4650672787920751951872, neg 7010428082809487753216, pos 7820359868874752,
   pos 3514455070789458722816, pos 90848090408963543138304, pos 3445916505530528432128,
   pos 1727282765397324726272, pos 36403251974747801518080, pos 2028550422129809555456, pos 69014955587796992,
   neg 60459757078859042783232, neg 4678151732905551331328, pos 7049757943274542202880, neg 8034496299138176,
   pos 4028605697457422848, neg 90848670913086307172352, neg 3465094004205096534016, pos 2185976960890983168,
   pos 314121649833120890880, pos 23193291886790328320, neg 50887187025322176],
  [pos 30731226000216349999104, pos 3699690361213109141504, neg 5578697758495003901952, neg 32635881705701376,
   pos 2795907790440008515584, pos 46240065417768207384576, pos 2738618093530411696128,
   pos 1372330513179596554240, pos 18551174883799405166592, pos 1607622306792013299712, pos 21776731408957440,
   neg 30735730423638039461888, neg 3724976537212323627008, pos 5614772959238072303616, pos 32832725598489248,
   pos 3367817159949415424, neg 46240572051453019947008, neg 2756235197474509160448, pos 1815023785973479680,
   pos 144832085137367597056, pos 18933971850192203776, neg 3007646147674080],
  [pos 12671276766153167339520, pos 2614811676253943234560, neg 3953262490977359626240, neg 135304859518763008,
   pos 1984139939845098176512, pos 19130105086599814447104, pos 1933811112933985091584,
   pos 970341294078719819776, pos 7699053458514711150592, pos 1129795052901373050880, neg 97961755329691648,
   neg 12675624363778103050240, neg 2633560194774679420928, pos 3979644287593039790080, pos 136722142331550944,
   pos 4225697446767472128, neg 19130370108058209615872, neg 1946800259705292455936, pos 2216327439971894272,
   pos 44884637666435276800, pos 18399188253898602496, pos 118623173624385664],
  [pos 6530602671221120172032, pos 2023557938328230690816, neg 3079964488934633766912, neg 277473263003631616,
   pos 1554386037300577435648, pos 9915139129538263384064, pos 1499541176824695357440,
   pos 756447525540427857920, pos 4011290547648987136000, pos 874300089294382956544, neg 263547785129754624,
   neg 6534646024160094978048, neg 2031544444446969954304, pos 3090423288116410843136, pos 280883510526247552,
   pos 7158849723712116736, neg 9914935284179778142208, neg 1504991785903133032448, pos 3696482331280156672,
   pos 9710252851099035648, pos 24717800018282590208, pos 287259888455971008],
  [pos 3428047998113565114368, pos 1761527949199658713088, neg 2718727182083590455296, neg 510169930423861248,
   pos 1389889155358045241344, pos 5271751471595402559488, pos 1317869092807805501440,
   pos 673194398418117197824, pos 2157723838913242464256, pos 773110593890189049856, neg 534241283510632448,
   neg 3431325589010247581696, neg 1748482839665156030464, pos 2698193595546113933312, pos 517416181553563136,
   pos 13325275484234207232, neg 5270365483673099173888, neg 1308878105546449485824, pos 6842524448759430144,
   neg 13883418700138694656, pos 40553952321244577792, pos 563683610349302592],
  [pos 2378584719529701539840, pos 797158048423124926464, neg 1185913699380957282304, pos 2603888012165120,
   pos 588094557811048972288, pos 3629697616471153180672, pos 567269732745168551936, pos 281303099985542905856,
   pos 1477042346227639779328, pos 322950945183849512960, pos 4009020587245568, neg 2380001241983485476864,
   neg 821465658734112407552, pos 1222069181964788695040, neg 2688268345435616, pos 215034934477195136,
   neg 3631859865767319699456, neg 584561721060144185344, pos 110074694984095936, pos 4280661976430906368,
   pos 1501128548290520320, neg 4258147971915072],
  [pos 1220770349230273331200, pos 420690873068954845184, neg 621336248781788151808, pos 692831509282816,
   pos 305895301798021824512, pos 1880582471825276010496, pos 289878243477140799488, pos 142710726942593253376,
   pos 772539093343606407168, pos 159795526848479232000, pos 1127689364701184, neg 1222688532726431088640,
   neg 441924781524941012992, pos 652695504921240797184, neg 689846670971168, pos 56633550257149200,
   neg 1883537524428554371072, neg 304508076458317971456, pos 28330509890072960, pos 1589242346856317440,
   pos 562835481627777856, neg 1160426392831712],
  [pos 592528312568113004544, pos 189923497236676739072, neg 276725215703405166592, pos 163611343323136,
   pos 134400054692709138432, pos 925412340718446313472, pos 122993858392315396096, pos 59735380189214539776,
   pos 385416825638207094784, pos 63720970115069509632, pos 275005279567872, neg 595279211750756974592,
   neg 206853300981632860160, pos 301392035677252091904, neg 127241639965024, pos 12454987500203488,
   neg 929708615851302715392, neg 133957194739832586240, pos 5917021539532416, pos 529424276994280640,
   pos 169772712217962720, neg 223016242316864],
  [pos 261620497627163394048, pos 68693106490762854400, neg 97468148668315467776, pos 51431495172096,
   pos 46099061140592001024, pos 414363104935274348544, pos 39464507813848154112, pos 18665304369441669120,
   pos 175008605713809276928, pos 18138221177192054784, pos 77032318828544, neg 265416083997564338176,
   neg 80051879886617313280, pos 113584907114403332096, neg 16933115362976, pos 2612542312493824,
   neg 420374606383755034624, neg 45990056916725006336, pos 1116337347310336, pos 153415624398543744,
   pos 38467881405153664, neg 27778864543648],
  [pos 150589625266820087808, pos 32823238318765375488, neg 45358114943371575296, pos 30220396527616,
   pos 20893360411102937088, pos 239017371655499415552, pos 16801182118340067328, pos 7739138313618456576,
   pos 101165584842770874368, pos 6880086048886489088, pos 38212458250240, neg 154845643935978094592,
   neg 40736410911830441984, pos 56293186373748785152, neg 4452956148992, pos 917656240037184,
   neg 245772532347130871808, neg 20851619873839382528, pos 357221403942080, pos 69129490371922512,
   pos 13643941011309072, neg 6468538975120],
  [pos 96508409903501541376, pos 17878700785814994944, neg 24062938281336111104, pos 20371096993792,
   pos 10795462640013410304, pos 152324995928455380992, pos 8185164790284812288, pos 3672142057232138240,
   pos 64112991307244240896, pos 2997892523734597632, pos 21884401876992, neg 100850432096474234880,
   neg 23537600128840368128, pos 31679205451121557504, neg 1592726012736, pos 372029852935328,
   neg 159178252975688122368, neg 10775862228226801664, pos 133377059662336, pos 37564162335733408,
   pos 5948280346698528, neg 2022436179440],
  [pos 65578103314824822784, pos 10553640631773691904, neg 13835444807531495424, pos 14387737788416,
   pos 6045944599485087744, pos 102392968244176093184, pos 4336899127628791808, pos 1895175160863129600,
   pos 42633425914236502016, pos 1425790457174032384, pos 13359831318528, neg 69778416747869634560,
   neg 14687294945673347072, pos 19254485849678020608, neg 680074599840, pos 154960732583184,
   neg 108951285200155312128, neg 6035552098663137280, pos 51744560843168, pos 22630994337308736,
   pos 2934854249936643, neg 758365561184],
  [pos 46245160613490720768, pos 6587486657853784064, neg 8413082459022032896, pos 10409859874816,
   pos 3581551232533135360, pos 71173509789238951936, pos 2438051207627538432, pos 1037903413865709568,
   pos 29210520365601652736, pos 721886000766255104, pos 8521080897536, neg 50174755130003423232,
   neg 9661085836906856448, pos 12338447374141620224, neg 325930891216, pos 61448972380328,
   neg 77221336976885547008, neg 3575584026611548160, pos 19440362730080, pos 14529065759081856,
   pos 1572870188518672, neg 321182602848],
  [pos 33474418326670147584, pos 4287722808768724992, neg 5335775353946243072, pos 7657389817856,
   pos 2213346942291804160, pos 50654013714393464832, pos 1433755997455450112, pos 594735525817974784,
   pos 20440124513501315072, pos 383558571754782720, pos 5638688079872, neg 37069911598389264384,
   neg 6608321332391968768, pos 8223582709846900736, neg 169518938672, pos 19875557862280,
   neg 56094764343130849280, neg 2209721128701788160, pos 6244859491488, pos 9737789093534656,
   pos 895026207071152, neg 148579764712],
  [pos 24715152823597137920, pos 2884655013647351808, neg 3498734897135616000, pos 5707474665472,
   pos 1414522593628651520, pos 36706965977406373888, pos 874124653609287680, pos 353400280317870080,
   pos 14537930153419341824, pos 211918354007457792, pos 3856679305216, neg 27955218616546230272,
   neg 4660433384523431936, pos 5652524503826432000, neg 93752610880, pos 1490753311568,
   neg 41519108022987128832, neg 1412223127825088512, pos 900713394816, pos 6734823743887168,
   pos 533364163097480, neg 73608868952],
  [pos 18539118612719861760, pos 1993808669640228864, neg 2357618559436718080, pos 4302751924224,
   pos 929278617609830400, pos 26991497517066616832, pos 549074454603169792, pos 216419127555194880,
   pos 10479337935856467968, pos 120977931286609920, pos 2717841883136, neg 21427990295462543360,
   neg 3368958906196557824, pos 3983682370839248896, neg 54403214736, neg 6141182881736,
   neg 31197460463126315008, neg 927770777822494720, neg 1108524840656, pos 4771153400208544,
   pos 329723917928648, neg 38500053616],
  [pos 14090996161271824384, pos 1409620493178241024, neg 1625563096337481728, pos 3276791611392,
   pos 624868322734768128, pos 20094121151288049664, pos 353746602418700288, pos 135977029643059200,
   pos 7641267208693219328, pos 71027369225224192, pos 1967699001344, neg 16647612929469841408,
   neg 2485964984544133120, pos 2866787584466485248, neg 32821358800, neg 8759915473272,
   neg 23739914978851815424, neg 623852453096980480, neg 1703712601152, pos 3445749460325856,
   pos 210081277445856, neg 21057284952],
  [pos 10832030282689806336, pos 1016078816411385856, neg 1143110591836979200, pos 2518796992512,
   pos 428679706561216512, pos 15121224330921902080, pos 232956539963015168, pos 87358256445063168,
   pos 5629025195474812928, pos 42735436702941184, pos 1459148029952, neg 13082905910524772352,
   neg 1866720995566419968, pos 2100095848920907776, neg 20450771168, neg 9082735716224,
   neg 18263379272738013184, neg 427979720991047680, neg 1719866813120, pos 2528588187983136,
   pos 137296110114088, neg 11958503224],
  [pos 8409974887912833024, pos 744829114229194752, neg 817769413783322624, pos 1952935051264,
   pos 299288299548180480, pos 11488776141659439104, pos 156394601258352640, pos 57234763491926016,
   pos 4185256554955538432, pos 26277413210030080, pos 1104813228032, neg 10384692846715207680,
   neg 1423033352964014080, pos 1562385286167789568, neg 13096183064, neg 8418237083296,
   neg 14186410005492662272, neg 298796677323816960, neg 1523076497408, pos 1880961186788288,
   pos 91704685610616, neg 7013579852],
  [pos 6587748846078525440, pos 554133163153031168, neg 593964236829753344, pos 1526055567360,
   pos 212222779410350080, pos 8805198601554755584, pos 106808468416462848, pos 38160192711344128,
   pos 3138416951513055232, pos 16475264833814528, pos 851879919616, neg 8316215359509102592,
   neg 1099225594991214592, pos 1178234775266394112, neg 8586582528, neg 7396353509916,
   neg 11115463650598453248, neg 211871754656743424, neg 1271309905088, pos 1415874394019648,
   pos 62426098655848, neg 4230172996],
  [pos 5202045947734917120, pos 417725616616374272, neg 437290991419785216, pos 1201517101056,
   pos 152593644040224768, pos 6802560572473737216, pos 74074700910116864, pos 25846506142670848,
   pos 2372139003274067968, pos 10513194304929792, pos 667263434752, neg 6712901770709303296,
   neg 859092092597567488, pos 899327800330420224, neg 5747077224, neg 6313876479568, neg 8778255244626231296,
   neg 152339350909812736, neg 1029133067536, pos 1077036722141632, pos 43213513578240, neg 2615195984],
  [pos 4138173239241211904, pos 318639163165376512, neg 325892665738002432, pos 952677433344,
   pos 111105999422619648, pos 5294384420065902592, pos 52093208509153280, pos 17758315545894912,
   pos 1806308334689583104, pos 6817316830445568, pos 529690263552, neg 5457938099455655936,
   neg 678474202060161024, pos 693917260221775872, neg 3917308352, neg 5301221941548, neg 6982887261214867456,
   neg 110919402776952832, neg 819153768824, pos 827038512288800, pos 30363564040904, neg 1652416654],
  [pos 3314327305941155840, pos 245668799792021504, neg 245575215702867968, pos 760343429120,
   pos 81829067824824320, pos 4149092863407554560, pos 37102990815150080, pos 12361757303238656,
   pos 1385098499002990592, pos 4486407812808704, pos 425335980032, neg 4467033144410243072,
   neg 540906668444352512, pos 540699342438400000, neg 2713924608, neg 4408741459084, neg 5592120155057946624,
   neg 81690555702902784, neg 646090002136, pos 640534704255424, pos 21623714106264, neg 1064819352],
  [pos 2671310689426997248, pos 191261206890151936, neg 186931750973931520, pos 610623553536,
   pos 60901627007074304, pos 3272639898820804608, pos 26736042024534016, pos 8709241487077376,
   pos 1069158078068293632, pos 2992936954363904, pos 345006669824, neg 3678404393181904896,
   neg 434939116929417216, pos 425092751721234432, neg 1907983864, neg 3646861809464, neg 4506431625742516224,
   neg 60797728709279744, neg 507233831640, pos 499998299477472, pos 15588576136672, neg 698424680],
  [pos 2165782957325811712, pos 150235809067302912, neg 143619243410456576, pos 493183041536,
   pos 45765962070228992, pos 2597090564398120960, pos 19473871925223424, pos 6204509239705600,
   pos 830480200302067712, pos 2022006581100544, pos 282125664256, neg 3046205666741977088,
   neg 352476423197032448, pos 336952269485375488, neg 1359340800, neg 3008495956140, neg 3652841357815316480,
   neg 45687281038032896, neg 397506228872, pos 393135891971744, pos 11363800665328, neg 465529160],
  [pos 1765668873903800320, pos 118982262048948224, neg 111292006913015808, pos 400639918080,
   pos 34700657906679808, pos 2072883798591668224, pos 14326240365879296, pos 4465986491912192,
   pos 648949389259177984, pos 1382228856668160, pos 232397996032, neg 2536025416297349120,
   neg 287707377450090496, pos 269111336386035712, neg 980295368, neg 2479576314544, neg 2977272970341253120,
   neg 34640548609982464, neg 311535933088, pos 311203727409424, pos 8369401504536, neg 314904224],
  [pos 1446994530661302272, pos 94947487286034432, neg 86929105693704192, pos 327222820864,
   pos 26530178544959488, pos 1663530950120439808, pos 10637375787786240, pos 3245679106260992,
   pos 509994167846305792, pos 955340917047296, pos 192803766272, neg 2121763390386339840,
   neg 236401338574700544, pos 216436761121128448, neg 714872360, neg 2044137434612, neg 2439272003905519616,
   neg 26483883664752640, neg 244467791400, pos 247901867213888, pos 6222674567384, neg 215911752],
  [pos 1191689182607572992, pos 76302971708637184, neg 68403460150525952, pos 268502564864,
   pos 20441332392656896, pos 1341952158214914048, pos 7966959098789888, pos 2380141789472768,
   pos 402978202898661376, pos 667151631384576, pos 160927055872, neg 1783449592605179904,
   neg 195441544864727040, pos 175207621789351936, neg 526706464, neg 1686971952676, neg 2008325410934751232,
   neg 20405407466373120, neg 192241669264, pos 198646293801616, pos 4667455006376, neg 149901749],
  [pos 986016964440752128, pos 61722903405658112, neg 54198840051105792, pos 221526360064,
   pos 15864612960337920, pos 1087890375928446976, pos 6015444640022528, pos 1760222403190784,
   pos 320078521126879232, pos 470451725795328, pos 134888816640, neg 1505669651582943232,
   neg 162504557676593152, pos 142695022466433024, neg 391786512, neg 1394472713094, neg 1661229271251419136,
   neg 15836538458914816, neg 151572466432, pos 160064692622560, pos 3529733560656, neg 105283653],
  [pos 819461472240271360, pos 50235613940547584, neg 43222670401601536, pos 183475634176,
   pos 12396774291406848, pos 886086239665520640, pos 4576634346348544, pos 1312148409184256,
   pos 255501974944874496, pos 334806256713728, pos 113682415616, neg 1276437724195717120,
   neg 135841012565803008, pos 116877409989558272, neg 294023504, neg 1155009667316, neg 1380213063770701824,
   neg 12374689859305472, neg 119867201632, pos 129655501833984, pos 2689878334000, neg 74746036],
  [pos 683914361466519552, pos 41121639584235520, neg 34679488204701696, pos 152672665600,
   pos 9749303098605568, pos 724966480272424960, pos 3506995170111488, pos 985491850223616,
   pos 204929800857452544, pos 240351335940096, pos 96234110976, neg 1086366424402493440,
   neg 114120975329656832, pos 96242675264258048, neg 222489740, neg 958847078728, neg 1151573083702951936,
   neg 9731822851391488, neg 95102358412, pos 105546894102768, pos 2064650750416, neg 53600931],
  [pos 573083837353951232, pos 33843284589674496, neg 27984665670582272, pos 127506841600,
   pos 7713790321754112, pos 595698092074336256, pos 2705579717152768, pos 745418666214400,
   pos 165122182693781504, pos 173972683489280, pos 81671487488, neg 928055807687262208, neg 96324614261833728,
   pos 79649862667599872, neg 169669772, neg 797961712340, neg 964675000818991104, neg 7699873547878400,
   neg 75711456536, pos 86327725665200, pos 1595516842176, neg 38800968]]

/-- `XYZ_raw[k, g, n, 1]` times `2 ^ 78`, for the size ratio 1/10: list `n` belongs to row `n` of
`values_of_s_dash.txt` and has the eleven scalars for `g = 0` and then those for `g = 1`:
`resistance_scalars/data.py` lines 26-33, `resistance_scalars/scalars_general_resistance_d.npy`. -/
def shipped_1_10 : List (List Int) := [
  [pos 454208484543522575615000576, pos 116404193850978849521664, neg 184140955268439949180928,
   pos 45807879897764331520, pos 97937431956561260969984, pos 681342752205910677561278464,
   pos 80230525395974561464320, pos 41925489199595198087168, pos 272549210883621657226772480,
   pos 44808651031860203225088, pos 50234692602819510272, neg 454209014635271389748133888,
   neg 117959562297683486965760, pos 186493563116431591079936, neg 46014768948062814208,
   pos 2182196121787765620736, neg 681343558083994349996081152, neg 81209945786784120045568,
   pos 1718462323690187259904, pos 27241871717133120014647296, pos 6892819661461971271680,
   neg 51299473939515244544],
  [pos 227132137700887186953469952, pos 107507685175248505798656, neg 169947044689761871593472,
   pos 45738321114759692288, pos 90321569455871354732544, pos 340726108194166770721882112,
   pos 73982877254512829005824, pos 38636554954666409984000, pos 136301703750374694234095616,
   pos 41258278102495871893504, pos 50165018846627364864, neg 227132667792636035446341632,
   neg 109063053621953160019968, pos 172299652537753580601344, neg 45945210165067186176,
   pos 1991978186225252040704, neg 340726914072250443156684800, neg 74962297645322395975680,
   pos 1571441134786376368128, pos 13618055813024402458542080, pos 6320051644127627968512,
   neg 51229800183324606464],
  [pos 90882446537348369598119936, pos 95749252773758283808768, neg 151187997198694423199744,
   pos 45546830828541050880, pos 80256791263876023844864, pos 136348765532148769952366592,
   pos 65725191717674389864448, pos 34289667501681635491840, pos 54549644237856313291309056,
   pos 36565550949845897838592, pos 49973212047558574080, neg 90882976629097200911122432,
   neg 97304621220462904475648, pos 153540605046686132207616, neg 45753719878867615744,
   pos 1740850478480329277440, neg 136349571410232442387169280, neg 66704612108483956834304,
   pos 1377292648361110011904, pos 5444085456696374852583424, pos 5563551014029576110080,
   neg 51037993384255258624],
  [pos 45462876423184365230489600, pos 86857475651728675176448, neg 137003677297309737025536,
   pos 45254312227386687488, pos 72647300062900410908672, pos 68217290029372336026681344,
   pos 59480357085848608440320, pos 31002630766398558699520, pos 27296205780357077207613440,
   pos 33016545656720305684480, pos 49680209944621613056, neg 45463406514933205133426688,
   neg 88412844098433346174976, pos 139356285145301446033408, neg 45461201277736452096,
   pos 1551364386223643164672, neg 68218095907455999871549440, neg 60459777476658175410176,
   pos 1230726062364090171392, pos 2719676071534355730661376, pos 4992255761787214888960,
   neg 50744991281304076288],
  [pos 22750407719413983437914112, pos 77970895837632825131008, neg 122829892139063747543040,
   pos 44716886588953460736, pos 65044807325495882416128, pos 34146470394728841918545920,
   pos 53238612913722270679040, pos 27717678323620162568192, pos 13667031067497975202709504,
   pos 29469042624205399523328, pos 49141895999308955648, neg 22750937811162831930785792,
   neg 79526264284337479352320, pos 125182499987055389442048, neg 44923775639307255808,
   pos 1362682176828015378432, neg 34147276272812510058381312, neg 54218033304531846037504,
   pos 1084658828458969792512, pos 1357692677890793642393600, pos 4422578247397611143168,
   neg 50206677336034508800],
  [pos 9119062704133957589401600, pos 66238967586249445998592, neg 104124567540365151698944,
   pos 43276470301539434496, pos 55015718442809719521280, pos 13696666091535430005555200,
   pos 44996687460470787932160, pos 23381419912094118051840, pos 5485994024612802460647424,
   pos 24783976387727859908608, pos 47699098858514546688, neg 9119592795882801787305984,
   neg 67794336032954083442688, pos 106477175388356827152384, neg 43483359351859478528,
   pos 1115653943787027300352, neg 13697471969619100292874240, neg 45976107851280354902016,
   pos 893056834025032515584, pos 540822615659989883158528, pos 3674327420494405435392,
   neg 48763880195219030016],
  [pos 4572303006481904767598592, pos 57386277519933151641600, neg 90019475596711517224960,
   pos 41142095247860301824, pos 47458860131875911892992, pos 6874434435029903289090048,
   pos 38775095047822294122496, pos 20110058379894413328384, pos 2756263614859094419046400,
   pos 21246269048196079550464, pos 45561195912188919808, neg 4572833098230748428632064,
   neg 58941645966637738754048, pos 92372083444703209455616, neg 41348984298176380928,
   pos 932213561151540297728, neg 6875240313113570355183616, neg 39754515438631861092352,
   pos 750245692870905561088, pos 268781155278792471609344, pos 3115198584237275480064,
   neg 46625977248885211136],
  [pos 2296294563020560941449216, pos 48618858838879075565568, neg 76069129512223277842432,
   pos 37859160152761958400, pos 39995191625964637388800, pos 3458348273159420849946624,
   pos 32626995562178796322816, pos 16880562670935302209536, pos 1388998298870896786407424,
   pos 17756253643430793576448, pos 42352199826384355328, neg 2296820939786724537532416,
   neg 50157716134948514037760, pos 78398887741491525976064, neg 37896509460967456768,
   pos 754553853193697230848, neg 3459148561665508258086912, neg 33598089871024111747072,
   pos 611330765297085186048, pos 132982377474792420802560, pos 2568262369299743113216,
   neg 43299346657536933888],
  [pos 926971299334144783286272, pos 37210653876344800149504, neg 57965974867846010765312,
   pos 29718304979201032192, pos 30337451494265120096256, pos 1401682665562717460365312,
   pos 24645205665491057639424, pos 12696796662035900268544, pos 565256112466639573745664,
   pos 13232988609584794959872, pos 34427327927625449472, neg 927486445132369646059520,
   neg 38700368075827286376448, pos 60227835072369467064320, neg 29253614001670586368,
   pos 535509017765675663360, neg 1402466061385701223563264, neg 25591715682857271689216,
   pos 438023662771907330048, pos 51825226530563075080192, pos 1877986699315712098304, neg 35032425475200942080],
  [pos 467758200217887934775296, pos 28843561146508803833856, neg 44756093027619031744512,
   pos 18778302902228221952, pos 23327976925150218027008, pos 710912676464608889798656,
   pos 18822725138673498587136, pos 9656847651672671911936, pos 288162921917117798285312,
   pos 9946406183451039367168, pos 23823508369104175104, neg 468254345187721322954752,
   neg 30252653014375926333440, pos 46906927472859517288448, neg 17498486812851208192,
   pos 390816938708924628992, neg 711667509734087512293376, neg 19729549301467918106624,
   pos 320789612503567564800, pos 25023541367123052855296, pos 1399546476799298371584, neg 23893853932032032768],
  [pos 235836228548884804141056, pos 20895098845194348396544, neg 32309077139451323351040,
   pos 1530943318123347968, pos 16779740911967768936448, pos 361187168419232429899776,
   pos 13350933919795156877312, pos 6817444209354095984640, pos 147527303397789742923776,
   pos 6880951091706327990272, pos 7155896059162525696, neg 236293343378756138434560,
   neg 22147622950193655185408, pos 34245644278708811333632, pos 1300442727834583040,
   pos 276166540133910118400, neg 361883385018324074102784, neg 14183033291005799432192,
   pos 223676895369553838080, pos 11847514194426653048832, pos 984064439770685636608, neg 6283063935185977344],
  [pos 188913248580771493445632, pos 18630660304544737525760, neg 28517396649945182765056,
   pos 21409827613617160192, pos 14656887000826566934528, pos 290014409627138007236608,
   pos 11686092171371928879104, pos 5924354537589876719616, pos 118754231076782516207616,
   pos 5956623747371057020928, pos 22262559721115353088, neg 189464726109363384614912,
   neg 20036262541674766401536, pos 30626504001921644232704, neg 21103844284159361024,
   pos 196631769684131643392, neg 290865974192441355403264, neg 12534169680467661422592,
   pos 169233543637789638656, pos 9179724890079520358400, pos 794525386876976103424, neg 22181237309405757440],
  [pos 93844149885012885372928, pos 11831671125438634131456, neg 17874335135154726502400,
   pos 13663646174437965824, pos 9062464053377826291712, pos 145581990980145825972224,
   pos 7064425948552745713664, pos 3536026955517639262208, pos 60239424644321923563520,
   pos 3431094302297278119936, pos 15035586164687896576, neg 94411813382502964264960,
   neg 13090868576340104183808, pos 19748891543766910894080, neg 12905549785370656768,
   pos 100390176844834242560, neg 146463275715866302349312, neg 7794785602929623564288,
   pos 89447502373544099840, pos 4113028966288564158464, pos 450159569746134302720, neg 14618178477655031808],
  [pos 44799756050120879112192, pos 6373639741834671423488, neg 9427639505149614882816,
   pos 7131980828237627392, pos 4676874715634962792448, pos 70272786039925412724736,
   pos 3495495894986580295680, pos 1713632329089409875968, pos 29400573050404852465664,
   pos 1562774715914336075776, pos 7893937088578453504, neg 45387753915739789066240,
   neg 7391885809275264565248, pos 10919279356268945342464, neg 5921693969917706240, pos 39264530019715825664,
   neg 71192705938949870190592, neg 4042419774003972407296, pos 37003983661607419904,
   pos 1722874553158369804288, pos 206096683434558619648, neg 6959089454070693888],
  [pos 19439942082814942380032, pos 2674105961273408618496, neg 3814005377866907254784,
   pos 3082574652300591104, pos 1823094694583554015232, pos 30643993248642319253504,
   pos 1261831560726895919104, pos 596632462800565305344, pos 12883588228170987339776,
   pos 488105972328988409856, pos 3097140657806901248, neg 20027354027805382803456, neg 3358033649164819103744,
   pos 4783632552608495828992, neg 1790385405290348544, pos 10062050258459410432, neg 31567324686642015371264,
   neg 1579335744768622723072, pos 10658314932620263424, pos 639378256349388865536, pos 68103968944249298944,
   neg 1998056186144587776],
  [pos 10950130003275312791552, pos 1367445527785310781440, neg 1885833776366216019968,
   pos 1761655904630996992, pos 871507577280005144576, pos 17146655353665927249920, pos 562274624727972577280,
   pos 257028948570856226816, pos 7161035783448752553984, pos 190956414379224989696, pos 1561347254642540544,
   neg 11502633380898494480384, neg 1841003796071110934528, pos 2535698296034132230144, neg 693555084267585536,
   pos 3277947827699941376, neg 18010040604631098195968, neg 754002414397735043072, pos 4086888781522305024,
   pos 324696027765153857536, pos 28800178679118094336, neg 700735559642775552],
  [pos 6855614018758222282752, pos 774781248774204293120, neg 1034610758552672796672, pos 1136237537514225664,
   pos 463122052990896177152, pos 10595064764733518249984, pos 279872855006808899584,
   pos 123772668565066350592, pos 4367225719706573864960, pos 84380845941263958016, pos 893669745650302976,
   neg 7356842963222327721984, neg 1111130138081859993600, pos 1481666981819580416000, neg 310537102955118592,
   pos 1125097753783304192, neg 11368469939762118000640, neg 399497691623599374336, pos 1815573337143083008,
   pos 187776423563546296320, pos 13857185458853670912, neg 280423011649601536],
  [pos 4551373682878258872320, pos 469284605142262349824, neg 607384460914371592192, pos 778456548660740096,
   pos 263702414199732830208, pos 6914292322269235511296, pos 149869540619980374016, pos 64116366902363422720,
   pos 2801707508226745958400, pos 40564800807239680000, pos 552368805486002176, neg 4995869316868128899072,
   neg 713389209931153932288, pos 921858699614897569792, neg 153291729694965760, pos 344774101136769024,
   neg 7588591386742547808256, neg 226589097122031730688, pos 886185116114649088, pos 116799652577088995328,
   pos 7253593232695328768, neg 123547195137531904],
  [pos 3139539486523676164096, pos 298335859427013296128, neg 374542134291137036288, pos 552364006598246400,
   pos 157888658142117494784, pos 4676134343146110713856, pos 84689734044504555520, pos 35027294963490095104,
   pos 1857892339032906530816, pos 20841431336788951040, pos 360581268674445312, neg 3527995198232835653632,
   neg 478801547327386419200, pos 600045858485616771072, neg 81245434723385344, pos 48900377457557504,
   neg 5253859615273039953920, neg 135063802004152254464, pos 462729581706821632, pos 76187747260749873152,
   pos 4035683080986836992, neg 58609063461765120],
  [pos 2226435034848813907968, pos 196878073847980490752, neg 239912806609586225152, pos 401208022329720832,
   pos 98289773898809475072, pos 3245679202325669871616, pos 49921330233298386944, pos 19939822422085599232,
   pos 1262329897057840529408, pos 11337420584830107648, pos 245698739673497600, neg 2562708196225139605504,
   neg 332453122701187350528, pos 404346061388339216384, neg 45477411676946432, neg 59338114923839488,
   neg 3735091561833386999808, neg 83679288198452740096, pos 254473075819954176, pos 51420786476943835136,
   pos 2353223136441180160, neg 29494696200413184],
  [pos 1613119481635932209152, pos 133889988877090816000, neg 158464612243171442688, pos 296527119633088512,
   pos 63147801488283140096, pos 2299092640643527213056, pos 30462099708412690432, pos 11733323715732701184,
   pos 874363895084390285312, pos 6496094407660404736, pos 173428434494554112, neg 1902460596297872179200,
   neg 237183912930007056384, pos 280145933662609735680, neg 26590488631934976, neg 91826865368875008,
   neg 2710703168190119149568, neg 53494822191650308096, pos 145912638713856000, pos 35623835296410959872,
   pos 1424831993731842048, neg 15582116196429824],
  [pos 1189317561352942780416, pos 93352712973089505280, neg 107371878774109896704, pos 222243554171289600,
   pos 41651304995965894656, pos 1656083607364646731776, pos 19138691980079923200, pos 7095746427011596288,
   pos 615459216878045495296, pos 3908052299779407872, pos 126077717136277504, neg 1437354661042391613440,
   neg 173038730126590738432, pos 198604013170826674176, neg 16114713257394176, neg 93887986554716160,
   neg 2000727173534698176512, neg 35106701389131677696, pos 86627145028272128, pos 25203434455340318720,
   pos 889996681997983744, neg 8575016568496128],
  [pos 889837636775823015936, pos 66479443528602615808, neg 74348328118744252416, pos 168553203695091712,
   pos 28096010851480240128, pos 1210089132415525060608, pos 12331514136781651968, pos 4390904027201339392,
   pos 439293633393261019136, pos 2462428339420266496, pos 93947386098876416, neg 1102032958654211162112,
   neg 128641879146462445568, pos 143559811939914743808, neg 10065031147552768, neg 84623535191932928,
   neg 1497951389794804170752, neg 23561586417971232768, pos 52980222991187968, pos 18145603960794218496,
   pos 570770894444699648, neg 4886670026465280],
  [pos 674282436799181619200, pos 48213683976764653568, neg 52457481148222668800, pos 129168442644234240,
   pos 19325286199030972416, pos 895344046439948877824, pos 8123656568681791488, pos 2770687727645491200,
   pos 317451704782582448128, pos 1620800312258330624, pos 71468274663030784, neg 855660344746606329856,
   neg 97195443020049154048, pos 105524957660584083456, neg 6451083629518848, neg 72149694423252992,
   neg 1135527218862998159360, neg 16124704496543072256, pos 33249818730987520, pos 13261127131119616000,
   pos 374460827697692672, neg 2870522076835840],
  [pos 516699581627901149184, pos 35529245986520039424, neg 37627307461826314240, pos 99913759178358784,
   pos 13522754176647430144, pos 669905747104975814656, pos 5458576249321684992, pos 1777733326122385408,
   pos 231978005238491643904, pos 1110898154221338624, pos 55316994781609984, neg 671737126190026063872,
   neg 74478418340819763200, pos 78712760251608727552, neg 4228811281408000, neg 59812145501556736,
   neg 870300855037211967488, neg 11226775044630249472, pos 21347995168866304, pos 9818994984260567040,
   pos 250605398747324416, neg 1731730915979264],
  [pos 399933836316765061120, pos 26554538283927339008, neg 27387797283828400128, pos 77944502706241536,
   pos 9608406799539503104, pos 506321016316097462272, pos 3733920308564721664, pos 1157026555925823488,
   pos 171256701570588344320, pos 789812928126648320, pos 43441610192584704, neg 532540900733410607104,
   neg 57784851906938535936, pos 59480528344538152960, neg 2827558631292928, neg 48852840073236480,
   neg 673638656386160132096, neg 7937603646648483840, pos 13987782993534976, pos 7355239061859532800,
   pos 170698277032386560, neg 1069721276504064],
  [pos 312377484003116056576, pos 20099127064114757632, neg 20198197331831554048, pos 61283952714842112,
   pos 6921800544684081152, pos 386233741090714812416, pos 2596121099195383808, pos 762248147270696960,
   pos 127625817074054463488, pos 579957736553316352, pos 34535183956836352, neg 425924029985729806336,
   neg 45332400883787366400, pos 45472676390841090048, neg 1924289616437248, neg 39594656808415232,
   neg 526109694973653811200, neg 5690265580783796224, pos 9334349880836096, pos 5567556381134258176,
   pos 118119146150649856, neg 674932633671680],
  [pos 246020999813531697152, pos 15387182602834149376, neg 15073781471972950016, pos 48536210808766464,
   pos 5049082948251287552, pos 297147434163903660032, pos 1832272822645424128, pos 507325419050532864,
   pos 95946869491640565760, pos 437861297258758144, pos 27740985257623552, neg 343386437309228384256,
   neg 35919288355128344576, pos 35130108471656054784, neg 1330505612058624, neg 31976546458251264,
   neg 414276251003304017920, neg 4130761304281186304, pos 6333215824732160, pos 4254583362905473024,
   pos 82908366258683904, neg 434050854213632],
  [pos 195244553497495994368, pos 11902216963214016512, neg 11371666487473340416, pos 38702023721353216,
   pos 3725306379540365312, pos 230421885944974016512, pos 1311235732619526144, pos 340503453985800192,
   pos 72723610818828042240, pos 338423233424392192, pos 22482240923500544, neg 278875242982782533632,
   neg 28718577902489174016, pos 27399825562225606656, neg 933252222730240, neg 25797930480459776,
   neg 328693784330868097024, neg 3033277150995677184, pos 4362551411548160, pos 3279676435604144128,
   pos 58952845578182656, neg 284023167342592],
  [pos 156046645928711421952, pos 9293808916326514688, neg 8664097597769121792, pos 31057535985254400,
   pos 2777569724706324480, pos 180000441447024164864, pos 950576073241657344, pos 230049834217472000,
   pos 55546132524808798208, pos 266720005461114880, pos 18361012906360832, neg 228013505762243379200,
   neg 23150879401826058240, pos 21557710885799067648, neg 663230995222528, neg 20825554257354752,
   neg 262628885860798431232, neg 2250997537157152768, pos 3047135901442048, pos 2548558847276548096,
   pos 42419298869723136, neg 188817246271488],
  [pos 125541039044820992000, pos 7320168611023159296, neg 6661606202051919872, pos 25072813530415104,
   pos 2091091975896825856, pos 141585288399666806784, pos 697516122229702656, pos 156166649480937472,
   pos 42733838192147955712, pos 213619248298196992, pos 15096545636515840, neg 187593465597299523584,
   neg 18803722489532776448, pos 17097810304443613184, neg 477024070639616, neg 16839158338732032,
   neg 211220250799888138240, neg 1686821047725719552, pos 2155793679785984, pos 1995249605122228224,
   pos 30857801951748096, neg 127361412793344],
  [pos 101621564628346601472, pos 5811901585210474496, neg 5165282098111578112, pos 20356152051105792,
   pos 1588482409261694976, pos 112092618717403283456, pos 517694512362225664, pos 106306790659407872,
   pos 33102096863676334080, pos 173370704564060160, pos 12486723523051520, neg 155235825168083320832,
   neg 15379219292178350080, pos 13661479974721290240, neg 346908821770240, neg 13647508563423232,
   neg 170918044598496395264, neg 1275522041324634112, pos 1543381278474240, pos 1572970272139591680,
   pos 22675329343250432, neg 87066676274176],
  [pos 82734982485124317184, pos 4648678790724059136, neg 4036524608376012800, pos 16615461827379200,
   pos 1216815747116826624, pos 89287080443788656640, pos 388393339682422784, pos 72404973970276352,
   pos 25807559785795551232, pos 142250188788989952, pos 10383398849740800, neg 129156549731762044928,
   neg 12659414905795903488, pos 10991153158576668672, neg 254877652889600, neg 11091419718793216,
   neg 139103145058143043584, neg 972661831702413312, pos 1117183985164288, pos 1248164576656261120,
   pos 16819662567759872, neg 60262667467776],
  [pos 67724787459226075136, pos 3743945404807380992, neg 3177524746907025408, pos 13631150576631808,
   pos 939426717011804160, pos 71533140529729503232, pos 294378118738477056, pos 49209903302508544,
   pos 20244296028590702592, pos 117778216084570112, pos 8676231021068288, neg 108004808302295777280,
   neg 10482958391920558080, pos 8899655174260260864, neg 189049010098176, neg 9041603826913280,
   neg 113824832351201394688, neg 747568463681552384, pos 817026603073536, pos 996507541257977856,
   pos 12585797368864768, neg 42193687259136],
  [pos 55722172423436500992, pos 3034714241912274944, neg 2518445076084948992, pos 11236868175691776,
   pos 730608140625641472, pos 57623640060150677504, pos 225297125889441792, pos 33262365057155072,
   pos 15973170729088712704, pos 98259382738878464, pos 7281870425292800, neg 90748492459299307520,
   neg 8729098884447469568, pos 7249468763585642496, neg 141469895622656, neg 7394397207238656,
   neg 93617411794992627712, neg 578816549831573504, pos 603276978143232, pos 800190554470285312,
   pos 9495085891764224, neg 29861231981568],
  [pos 46069101874116558848, pos 2474660000539082752, neg 2008880953721618432, pos 9305694985519104,
   pos 572135898544603136, pos 46660357016476712960, pos 174029514578722816, pos 22259405005537280,
   pos 12673344910863106048, pos 82504674233548800, pos 6136569614303232, neg 76592493826142109696,
   neg 7306575612143992832, pos 5938547198158438400, neg 106746025246720, neg 6067374638417920,
   neg 77370694549416968192, neg 451272822753722368, pos 449473885757440, pos 646059140731928576,
   pos 7218593691107328, neg 21346442236928],
  [pos 38263349789170073600, pos 2029373928085913600, neg 1612086711616536576, pos 7740141825163264,
   pos 450956953124864000, pos 37969829164627263488, pos 135620214802481152, pos 14653018331873280,
   pos 10108604141883359232, pos 69660274558238720, pos 5191036322185216, neg 64919559737301794816,
   neg 6145781081374195712, pos 4890458243764060160, neg 81173505335296, neg 4995255892318208,
   neg 64237378855042547712, neg 354137336971788288, pos 337724594548736, pos 524314463617957888,
   pos 5527701827624960, neg 15403789378560],
  [pos 31918864319874334720, pos 1673064095521177600, neg 1301023937071153152, pos 6464847453618176,
   pos 357632010396631040, pos 31043488142613020672, pos 106583719615299584, pos 9393550509662208,
   pos 8103773626236403712, pos 59099655962624000, pos 4406788044619776, neg 55247089745082187776,
   neg 5193173690499465216, pos 4047460794538917888, neg 62180008370176, neg 4126442528989184,
   neg 53566215154867109888, neg 279628039318667264, pos 255785846710272, pos 427600345069518848,
   pos 4261835951349760, neg 11214231215104]]

/-- `XYZ_raw[k, g, n, 2]` times `2 ^ 78`, for the size ratio 1: list `n` belongs to row `n` of
`values_of_s_dash.txt` and has the eleven scalars for `g = 0` and then those for `g = 1`:
`resistance_scalars/data.py` lines 26-33, `resistance_scalars/scalars_general_resistance_d.npy`. -/
def shipped_1 : List (List Int) := [
  [pos 7556197986357109303342530560, pos 461191884840724695351296, neg 685227236961343489703936,
   pos 10868446006784317980672, pos 558832900979411061309440, pos 11334324577191768021740290048,
   pos 342600783489620579975168, pos 54491472515639134912512, pos 4533744384862458304142508032,
   pos 353333609950336744685568, pos 6403205099511957422080, neg 7556197033614431076789256192,
   neg 459799581740095066079232, pos 686269148920994003419136, neg 7088810845637472944128,
   pos 126031620386601169846272, neg 11334319997764538944974749696, neg 337084405685978629406720,
   pos 280536195194349089193984, pos 4533736053185191544331698176, pos 53677944225929900326912,
   neg 2936110949701680889856],
  [pos 3778257665457752304429039616, pos 426276738033558017277952, neg 632858342483658257989632,
   pos 10864620273719599693824, pos 516940478713340375334912, pos 5667414101007473165446676480,
   pos 316416336250777964118016, pos 49256296996283613184000, pos 2266980195689490050099183616,
   pos 328195402062887886258176, pos 6400909659673139871744, neg 3778256712715075177387393024,
   neg 424884434932928388005888, pos 633900254443308771704832, neg 7084985112572712714240,
   pos 115558973908051241730048, neg 5667409521580244088681136128, neg 310899958447136013549568,
   pos 259588836341394370985984, pos 2266971865542516701879336960, pos 47397294501793714143232,
   neg 2933815509862825590784],
  [pos 1511459446292217939483426816, pos 380121424532494801174528, neg 563635904197804519587840,
   pos 10854088307978581049344, pos 461569942588539271118848, pos 2267216786477324263439204352,
   pos 281805117107851094917120, pos 42338771488350194892800, pos 906901273458299150379515904,
   pos 294965497372673421869056, pos 6394590480228528685056, neg 1511458493549539987808059392,
   neg 378729121431865171902464, pos 564677816157455033303040, neg 7074453146831736012800,
   pos 101717603712739861069824, neg 2267212207050095461551570944, neg 276288739304209144348672,
   pos 231900408689271412621312, pos 906892947524112163125854208, pos 39100560934295926996992,
   neg 2927496330418239569920],
  [pos 755833677027309099031724032, pos 345206277725104382148608, neg 511279272509781038858240,
   pos 10837999784916366131200, pos 419695963558356233224192, pos 1133778154299466994927271936,
   pos 255626801263839354552320, pos 37110315977879729471488, pos 453525826057254243877781504,
   pos 269829526217958839287808, pos 6384937366391239999488, neg 755832724284631009917403136,
   neg 343813974624474752876544, pos 512321184469431552573440, neg 7058364623769521094656,
   pos 91251039577961566044160, neg 1133773574872238193039638528, neg 250110423460197403983872,
   pos 210958592617261316440064, pos 453517506558476240965074944, pos 32832978439140737548288,
   neg 2917843216580913135616],
  [pos 377997229285129053909549056, pos 310291130918049641660416, neg 458936110709312554270720,
   pos 10808441374802739986432, pos 377842243238701381451776, pos 567023522590050742173696000,
   pos 229455220363605112258560, pos 31889241965563773714432, pos 226823983423347132756656128,
   pos 244696011970884187193344, pos 6367202320323010625536, neg 377996276542451170953658368,
   neg 308898827817420012388352, pos 459978022668963067985920, neg 7028806213655920115712,
   pos 80791156507261492264960, neg 567018943162822077725016064, neg 223938842559963161690112,
   pos 190022864934399809421312, pos 226815675747933223156449280, pos 26579749455687948697600,
   neg 2900108170512750870528],
  [pos 151261345410401843921551360, pos 264135817416516797726720, neg 389782363352822804643840,
   pos 10729218478993156603904, pos 322575018272159648710656, pos 226919803728869211362033664,
   pos 194878346685360237445120, pos 25009359087237517541376, pos 90782522814659123266715648,
   pos 211478636505976209932288, pos 6319668582837274017792, neg 151260392667723926605922304,
   neg 262743514315887134900224, pos 390824275312473318359040, neg 6949583317846286401536,
   pos 66983857013123201368064, neg 226915224301640478193876992, neg 189361968881718286876672,
   pos 162365485582385974083584, pos 90774246828403514360725504, pos 18356212943186768691200,
   neg 2852574433026972319744],
  [pos 75656371391491215844179968, pos 229220670609372399796224, neg 337527033770058828480512,
   pos 10611827851040602980352, pos 280853397608026993590272, pos 113512501177851039902072832,
   pos 168750681893978249363456, pos 19836417130283873075200, pos 45419641707065327015165952,
   pos 186361142855370815832064, pos 6249234206065728421888, neg 75655418648813315708420096,
   neg 227828367508742736969728, pos 338568945729709342195712, neg 6832192689893716000768,
   pos 56567538722444366839808, neg 113507921750622289554046976, neg 163234304090336298795008,
   pos 141469458061933957611520, pos 45411412677060898915876864, pos 12196577971047036354560,
   neg 2782140056255430918144],
  [pos 37830914845636275413712896, pos 194623671784796458057728, neg 285732356874011649507328,
   pos 10417774782922000171008, pos 239436543225152407601152, pos 56774314327310044663644160,
   pos 142865497855253532377088, pos 14776537926875811414016, pos 22724359101386683655913472,
   pos 161368993147935512330240, pos 6129977415838017257472, neg 37829979853163250130616320,
   neg 193259873613394349129728, pos 286816211216212527415296, neg 6682802879800159502336,
   pos 46328951045216480002048, neg 56769756038745014700867584, neg 137375732767541178662912,
   pos 120744708826896084762624, pos 22716207751894172568649728, pos 6237424930351258533888,
   neg 2704545212182424453120],
  [pos 15103055080821565136306176, pos 149413274770828183994368, neg 218127201436000136986624,
   pos 9929827028023877042176, pos 185346728513564418506752, pos 22682396735521619737313280,
   pos 109098473365623852236800, pos 8330955193091371302912, pos 9087537635754383448735744,
   pos 128556455168230077497344, pos 5828726496145235247104, neg 15102173323442866295406592,
   neg 148134920331103857278976, pos 219336828142739913703424, neg 6328399410739730710528,
   pos 33138813012326297370624, neg 22677901945383016747499520, neg 103688281161574723354624,
   pos 93678559804668222898176, pos 9079582585731410594627584, neg 1199114316458621927424,
   neg 2527606306132946059264],
  [pos 7503106495042892788137984, pos 116041946282416429596672, neg 168282624256165724291072,
   pos 9262029323814186254336, pos 145372107004030476091392, pos 11282081879242039065837568,
   pos 84232493200773121835008, pos 3800945383622240632832, pos 4527275513466488988106752,
   pos 104077487432187061993472, pos 5413889958958105362432, neg 7502313411191895234707456,
   neg 114905760497705825599488, pos 169701683261397178253312, neg 5881698987817664774144,
   pos 23670977383534570766336, neg 11277693193879084620316672, neg 78954041232141603307520,
   pos 73697714889429048360960, pos 4519592538655444309114880, neg 6202472486399517917184,
   neg 2317730142367690784768],
  [pos 3683926506696041796993024, pos 84103142493110633758720, neg 120566732091653416288256,
   pos 8184541662938597949440, pos 106865906317528850759680, pos 5552244297311506938200064,
   pos 60476727999258347700224, neg 196173314770964840448, pos 2234995225599986322374656,
   pos 80167284169261633765376, pos 4739031570526473551872, neg 3683310577061649182621696,
   neg 83250397981581131120640, pos 122403907671542162522112, neg 5240931562515914031104,
   pos 15027322437871687696384, neg 5548068843348991800246272, neg 55458474565860660871168,
   pos 54528574044099783426048, pos 2227764355683168913719296, neg 10256886020906967629824,
   neg 2044589966593378746368],
  [pos 2916961039809410492268544, pos 75135375623885919617024, neg 108064594584820831485952,
   pos 8244955825878106898432, pos 96853314947579581038592, pos 4402477556131604245512192,
   pos 54396724198717133946880, neg 1030621633562474971136, pos 1775072982125443161260032,
   pos 73766999512202709303296, pos 4783498754335784828928, neg 2916033019966822822182912,
   neg 73776507651760920199168, pos 108979320187177341550592, neg 4738920968265511469056,
   pos 12434791263015297613824, neg 4397936755927651780132864, neg 49188785921685750546432,
   pos 48868081823365239668736, pos 1767144686597034704109568, neg 11033273375657868394496,
   neg 1597265033882457079808],
  [pos 1373713258253522160320512, pos 47743118663497988177920, neg 67740687533948075507712,
   pos 6821667607955025952768, pos 63697218317553277861888, pos 2085591562748052696465408,
   pos 34509349609676879167488, neg 3513641081684667924480, pos 847339519983590406356992,
   pos 52397064285546870734848, pos 3991050990066755174400, neg 1372790582484114295750656,
   neg 46443132897939330957312, pos 68577834034438128795648, neg 3607836029363932889088,
   pos 5724567970085039243264, neg 2081071944842766614265856, neg 29620008288984617713664,
   pos 32018060882215323041792, pos 839729831280815254798336, neg 12620532608243622477824,
   neg 1125876166531057975296],
  [pos 599370726868488258846720, pos 25837371206966567763968, neg 35688528566708972027904,
   pos 4989934263624957689856, pos 36318022918340817715200, pos 919870181840388758700032,
   pos 18858560545593896206336, neg 4436679247299637936128, pos 379126099183549540204544,
   pos 33753599761787339669504, pos 2947435358045964599296, neg 598460037484049556570112,
   neg 24649372341372926820352, pos 36394702817918023892992, neg 2289704915110587269120,
   pos 1311772423509726199808, neg 915412947727307126079488, neg 14549904730416488644608,
   pos 18043880534164337852416, pos 371924902398603261116416, neg 11617385272803149742080,
   neg 594415547900399452160],
  [pos 224392033943063908843520, pos 11171759978892014649344, neg 14440180253350772604928,
   pos 2981840309205453504512, pos 16734895087211715231744, pos 350548817909228230410240,
   pos 8555439251537944117248, neg 3706100793042191515648, pos 148232574880708609179648,
   pos 18907842623871591120896, pos 1804664310748005007360, neg 223510619797513509535744,
   neg 10184077935693290012672, pos 14956520305814684041216, neg 1072995174022759055360,
   neg 512711615517911154688, neg 346287461254876733898752, neg 5207590854914885025792,
   pos 8048657725887109660672, pos 141704340503988545781760, neg 8032064350616301862912,
   neg 185053058989725581312],
  [pos 112314362294861461192704, pos 6024248655389571153920, neg 7142764254407979696128,
   pos 1911834937570654945280, pos 9257987004379183448064, pos 177819114892500177780736,
   pos 4937435792587333042176, neg 2761738172947463405568, pos 76877843761132247973888,
   pos 12270460755620246061056, pos 1193969657349570297856, neg 111469138488971749228544,
   neg 5205924945361398398976, pos 7532285134190730543104, neg 555853555552070139904,
   neg 641745317419211030528, neg 173828134949405583212544, neg 2329225718879395774464,
   pos 4273662902992392683520, pos 71066320329199323185152, neg 5333506178157515898880,
   neg 60135077282933899264],
  [pos 64001361344068298211328, pos 3658007631840283721728, neg 3906102650677690892288,
   pos 1276663501749076623360, pos 5611507591324287107072, pos 102331854509237390540800,
   pos 3226539134024027209728, neg 2032230777186219720704, pos 45088549551934667751424,
   pos 8509411115169992409088, pos 825444792894691999744, neg 63198542894798034960384,
   neg 2980637437056006488064, pos 4207059966996315635712, neg 306156695603306823680,
   neg 516697618844938665984, neg 98660405242551146119168, neg 1185988663670787276800,
   pos 2470455792919000383488, pos 40024352985245611458560, neg 3537388983175211909120,
   neg 18699098980623581184],
  [pos 39468406748975321841664, pos 2400453507655994966016, neg 2272664542986188619776,
   pos 877313878108005203968, pos 3602986589353507028992, pos 63549711549778796478464,
   pos 2270728883044641406976, neg 1502561604120459870208, pos 28445399906802825428992,
   pos 6128756713667268968448, pos 587477227758690500608, neg 38713055849614392950784,
   neg 1839273885982932336640, pos 2509300711447160946688, neg 176373989706213359616,
   neg 378112328195830185984, neg 60223527489152009371648, neg 666102479084782092288,
   pos 1505614084115814940672, pos 24109666854826066051072, neg 2361847045830245089280, neg 4719059438299774976],
  [pos 25729128053301607137280, pos 1664628645134673641472, neg 1379473904311241539584,
   pos 616541472084751024128, pos 2409692428221382918144, pos 41619277671217905008640,
   pos 1674885301619105202176, neg 1120744268630719594496, pos 18863585515979872927744,
   pos 4523809208180301365248, pos 426968364538319077376, neg 25024837470976147980288,
   neg 1198742348337629888512, pos 1567946638223992684544, neg 105306116166636273664,
   neg 268584476718070235136, neg 38644244061381449482240, neg 405980611791862890496,
   pos 952592760288590168064, pos 15201215519941063606272, neg 1591433297550376960000, neg 207294452444692480],
  [pos 17495850866488276680704, pos 1202826802229896282112, neg 863381970015720833024,
   pos 441400417577433300992, pos 1662344192097949581312, pos 28373248519389698850816,
   pos 1274405624172558417920, neg 843922970402079768576, pos 12979505996478743052288,
   pos 3397944820947130253312, pos 315389997393182195712, neg 16844592114249171468288,
   neg 814944671111776829440, pos 1014967771535436152832, neg 64775465247583502336, neg 189270448337978392576,
   neg 25739861648227486924800, neg 265152098266448396288, pos 620302615642481098752,
   pos 9916081872636846538752, neg 1083147888474550435840, pos 1020283075868229632],
  [pos 12304469995360719208448, pos 897036902169401360384, neg 552913281538766929920,
   pos 321094991887577645056, pos 1175456646132370767872, pos 19968089673249360707584,
   pos 990781141847052910592, neg 641382556216273534976, pos 9190370519454102585344,
   pos 2586597593299281772544, pos 236087853620259717120, neg 11706634427503759851520,
   neg 573017762523544289280, pos 675782510338189033472, neg 40875357034325737472, neg 133519406387715637248,
   neg 17656160559402227597312, neg 183354067593375776768, pos 413496890565924487168,
   pos 6645247575094003236864, neg 744858996321743273984, pos 1155205837879246848],
  [pos 8896392668067282288640, pos 685823045763334144000, neg 360309879998517346304, pos 236882603696172564480,
   pos 848280592205251346432, pos 14423004765013785182208, pos 782401071876428267520,
   neg 491739509080793808896, pos 6658941192680278851584, pos 1990442439511417815040,
   pos 178746500057908903936, neg 8350998514986215538688, neg 414171124583087734784, pos 460547025117181378560,
   neg 26376067915035181056, neg 94682520941319159808, neg 12405945742247566770176, neg 132709509240656494592,
   pos 281156265046639116288, pos 4553672516630357213184, neg 517531854675491422208, pos 974559204183375872],
  [pos 6583740402083794255872, pos 534911997519828353024, neg 237900458586273742848, pos 176964938563495919616,
   pos 622818227921579147264, pos 10646652498972789178368, pos 625235634505739927552,
   neg 380123445608715517952, pos 4917281459296997998592, pos 1545865462662513557504,
   pos 136697214750284578816, neg 6088731629852609740800, neg 306306076126050516992, pos 320136856695459545088,
   neg 17360351439592882176, neg 67628626342972489728, neg 8894919787556596875264, neg 99511353896475820032,
   pos 194496688883402539008, pos 3180234297357788774400, neg 363238394787709059072, pos 743626156316033024],
  [pos 4970125636078141440000, pos 424077396261713477632, neg 158579448353346551808, pos 133713794089594388480,
   pos 464143105696995475456, pos 8005583821679353659392, pos 504395820889926008832, neg 296119439931484209152,
   pos 3689743263751053770752, pos 1210356982473656631296, pos 105490643475759104000,
   neg 4522690382102781755392, neg 230962577896644804608, pos 226388775446796828672, neg 11631017588917534720,
   neg 48700154923712512000, neg 6489164168647545978880, neg 76653140266415292416, pos 136622929971184140288,
   pos 2258081501578312810496, neg 257460697290057449472, pos 542837034205577216],
  [pos 3817109227917094682624, pos 340810795141440733184, neg 106365020508426076160, pos 102086670804492222464,
   pos 350444895027983286272, pos 6116256888641818722304, pos 410122778426671628288, neg 232359717041486692352,
   pos 2806932370157985595392, pos 954618083801223397376, pos 82086298269159260160, neg 3413968464843324260352,
   neg 177056886812875685888, pos 162538153449376186368, neg 7918649685145812992, neg 35369443021759184896,
   neg 4806292752738891595776, neg 60257905463701536768, pos 97301912076966428672, pos 1626980914965422014464,
   neg 184223191795928924160, pos 388093948661071872],
  [pos 2976011679803212038144, pos 277063419380537229312, neg 71552243237218418688, pos 78686498941780885504,
   pos 267692180094456954880, pos 4738090105948377972736, pos 335730348316404744192, neg 183580008167755808768,
   pos 2161051535873427898368, pos 757984174086673137664, pos 64366971291271430144, neg 2613655471813975605248,
   neg 137685814593032552448, pos 118289156274059739136, neg 5470639119914762240, neg 25909518535355269120,
   neg 3607827803541803630592, neg 48104421521260281856, pos 70173553843408732160, pos 1187773683595617501184,
   neg 133024112633784041472, pos 274928249050234880],
  [pos 2351230894247059128320, pos 227477251974666125312, neg 48101736868579639296, pos 61186374374464159744,
   pos 206627528787370180608, pos 3715556016728431394816, pos 276477835558718275584, neg 145981059940305469440,
   pos 1681462474487889920000, pos 605619417463585243136, pos 50835528918293807104, neg 2026099582552382636032,
   neg 108411959269597904896, pos 87147869526237904896, neg 3830434557609377792, neg 19141277582898495488,
   neg 2740812247404210290688, neg 38859723988340310016, pos 51195721617225285632, pos 877523193513243574272,
   neg 96895592260507271168, pos 194220271606693888],
  [pos 1879636984160816463872, pos 188380153784590925824, neg 32177344994946842624, pos 47968647749688098816,
   pos 161010174521740623872, pos 2945457778617319686144, pos 228913616023654760448, neg 116795090923761647616,
   pos 1320709672079210840064, pos 486721102150849527808, pos 40419451436152127488, neg 1588249517728521519104,
   neg 86303404805322702848, pos 64926477347027156992, neg 2715328761247563776, neg 14258489458492440576,
   neg 2104760461290758995968, neg 31684910880055623680, pos 37750633868635930624, pos 655406693271761584128,
   neg 71170678605400244224, pos 137334427358199808],
  [pos 1518551781494226944000, pos 157191172973156892672, neg 21299126529810235392, pos 37893599431575470080,
   pos 126554073068050841600, pos 2357734838277869928448, pos 190472587484030566400, neg 93988480615967686656,
   pos 1046221068407924588544, pos 393331080371502055424, pos 32341650586397048832, neg 1257590476876032245760,
   neg 69375451938433269760, pos 48870281827531620352, neg 1946976625119723520, neg 10706654599588610048,
   neg 1632262007340608258048, neg 26028956673297612800, pos 28113751566848098304, pos 494437323767170465792,
   neg 52694077477591449600, pos 97419887591161856],
  [pos 1238519994218021126144, pos 132056251347274563584, neg 13839351895551901696, pos 30148384374197846016,
   pos 100265680018337693696, pos 1903855734486730801152, pos 159217575678662410240, neg 76053727608948342784,
   pos 835220733650916081664, pos 319528252250022477824, pos 26033372496310304768, neg 1004881793672235974656,
   neg 56255491396971003904, pos 37135281670672351232, neg 1410946127468953600, neg 8101904713035284480,
   neg 1277260117066825859072, neg 21515617865304113152, pos 21131539743841976320, pos 376472410384630808576,
   neg 39312600777132867584, pos 69421426322046976],
  [pos 1018827393268463960064, pos 111617964314533560320, neg 8715495127434395648, pos 24146750518111240192,
   pos 80023964563267387392, pos 1549588339526568247296, pos 133666638180922425344, neg 61865231938025201664,
   pos 671520432903942045696, pos 260868706445102678016, pos 21074505442076393472, neg 809651119427357245440,
   neg 45975958226621956096, pos 28467784983798349824, neg 1032663505898045440, neg 6176520748681658368,
   neg 1007766885716790870016, neg 17879000781441466368, pos 16021667331049521152, pos 289128928396848398336,
   neg 29543587383137533952, pos 49736770178908160],
  [pos 844662148552399519744, pos 94865853310992121856, neg 5199299104742572032, pos 19461468447689408512,
   pos 64305967865687703552, pos 1270396455844279484416, pos 112674057640391999488, neg 50576166554347954176,
   pos 543447203023780052992, pos 213991118513203314688, pos 17152099040746274816, neg 657337161779574210560,
   neg 37843082873438994432, pos 22003321154800975872, neg 762828426451091456, neg 4742197430307520512,
   neg 801238605125820350464, neg 14925710690962374656, pos 12246641586293702656, pos 223838765549350813696,
   neg 22357107727558246400, pos 35843554416918528],
  [pos 705271387340073336832, pos 81036693153790296064, neg 2795824270348910592, pos 15778183426139488256,
   pos 52005021359540273152, pos 1048436628783519236096, pos 95346240266406068224, neg 41544996432232538112,
   pos 442475216717557530624, pos 176334951780192354304, pos 14031190251087593472, neg 537435288003258875904,
   neg 31351745156965466112, pos 17138088197562040320, neg 568413103801237504, neg 3666057335041163264,
   neg 641577019252496400384, neg 12511697698341519360, pos 9433339963426996224, pos 174598881117873373184,
   neg 17031608578611347456, pos 25990098752438272],
  [pos 592738549005679591424, pos 69546536275500072960, neg 1165827340197953536, pos 12863505696531939328,
   pos 42308172383994773504, pos 870559357663602278400, pos 80980829556172521472, neg 34282476863778709504,
   pos 362304677734378373120, pos 145936775193120735232, pos 11534064942533574656, neg 442266142543255175168,
   neg 26129077977351192576, pos 13445376071973208064, neg 427016379341733888, neg 2852717120665944064,
   neg 517144116466131402752, neg 10527548757322235904, pos 7319161253173133312, pos 137154543286738747392,
   neg 13057415489296269312, pos 18963453892689920],
  [pos 501162228588086296576, pos 59943468321770307584, neg 74951125802942464, pos 10542692575721029632,
   pos 34612224192631799808, pos 726958844128717176832, pos 69022140978645172224, neg 28413157946557612032,
   pos 298231972497205493760, pos 121281759818836606976, pos 9525373186594570240, neg 366150815451965292544,
   neg 21896386918672760832, pos 10620315774192975872, neg 323268585212870656, neg 2233771692635979776,
   neg 419434789258311761920, neg 8888859445224013824, pos 5717887750903955456, pos 108458001608300560384,
   neg 10071661076779368448, pos 13923407801352192],
  [pos 426091579063949852672, pos 51874170747790295040, pos 639743675180515328, pos 8683872726739320832,
   pos 28465475445371961344, pos 610242223200568082432, pos 59027880577870462976, neg 23647181497604849664,
   pos 246711666976118276096, pos 101194417021445472256, pos 7901351187356581888, neg 304843617396005535744,
   neg 18442997270447128576, pos 8442884075282235392, neg 246510104719917056, neg 1759645567404998656,
   neg 342169342396325691392, neg 7529687414840492032, pos 4496076361829449728, pos 86304343843254829056,
   neg 7814024812462866432, pos 10286533329747968],
  [pos 364133473200617029632, pos 45059868570324828160, pos 1092159749083365376, pos 7186784024738660352,
   pos 23526769980164014080, pos 514779521141214019584, pos 50644087682905538560, neg 19759483080294670336,
   pos 205047946243714580480, pos 84757555996673441792, pos 6581952683156963328, neg 255138482080742113280,
   neg 15608003584682098688, pos 6752789996161204224, neg 189272759097360384, neg 1394147974278021120,
   neg 280667195366837321728, neg 6397983371782258688, pos 3557239684585226240, pos 69083576069156503552,
   neg 6096380865538949120, pos 7646192204972032],
  [pos 312676520709519835136, pos 39278775892422164480, pos 1362270253475692544, pos 5974658828317229056,
   pos 19536386114405269504, pos 436244712169872031744, pos 43586069774768865280, neg 16574347850626277376,
   pos 171174561653700165632, pos 71251778311032930304, pos 5505060275629326336, neg 214592650977747140608,
   neg 13267349222765625344, pos 5432225975788109824, neg 146274226802262016, neg 1110672338122178560,
   neg 231409497461149925376, neg 5452316644850270208, pos 2831017620243742720, pos 55609992749837713408,
   neg 4781815629590036480, pos 5717661988093952]]

/-- `XYZ_raw[k, g, n, 3]` times `2 ^ 78`, for the size ratio 10: list `n` belongs to row `n` of
`values_of_s_dash.txt` and has the eleven scalars for `g = 0` and then those for `g = 1`:
`resistance_scalars/data.py` lines 26-33, `resistance_scalars/scalars_general_resistance_d.npy`. -/
def shipped_10 : List (List Int) := [
  [pos 4542095402953037330289524736, pos 1196357739515247044067328, neg 567216426232142058487808,
   pos 51177592574246303825920, pos 904642789192156475031552, pos 6810203631492252429591773184,
   pos 1344766600620123376058368, neg 186417453772220835823616, pos 2723127076169334039250993152,
   pos 1762172211592179084165120, pos 62209253194860861587456, neg 4542090146352714996992966656,
   neg 1179595622976835507191808, pos 564002743100488353316864, neg 46014768948062730584064,
   pos 2182196121787764880441344, neg 6810201204094852866517237760, neg 1333459447876143833677824,
   pos 7465469969007486577934336, pos 27241871717133124996809359360, pos 6892819661461986195013632,
   neg 51299473939515733704704],
  [pos 2271331934526683031357358080, pos 1107392652757943875272704, neg 518790799600775027752960,
   pos 51108033791250657181696, pos 828539254741390644477952, pos 3404270868511174993878450176,
   pos 1235623072516709227167744, neg 172556999875049937698816, pos 1360838780818991851449090048,
   pos 1614651179666740139261952, pos 62139579438670259683328, neg 2271326677926360423182893056,
   neg 1090630536219532338397184, pos 515577116469121188364288, neg 45945210165067117494272,
   pos 1991978186225251126345728, neg 3404268441113774881048100864, neg 1224315919772729953222656,
   pos 6851363995810081865203712, pos 13618055813024401685447966720, pos 6320051644127642497581056,
   neg 51229800183325064691712],
  [pos 908835022891294857803857920, pos 989808328743041521156096, neg 454849445666531018014720,
   pos 50916543505051141799936, pos 728043133128107332993024, pos 1360806271337280618803232768,
   pos 1091468574680059689828352, neg 154220428128886800252928, pos 543564793016525623320903680,
   pos 1419892444141691884011520, pos 61947772639600932028416, neg 908829766290972249629392896,
   neg 973046212204629984280576, pos 451635762534877178626048, neg 45753719878867535003648,
   pos 1740850478480328268709888, neg 1360803843939881055728697344, neg 1080161421936080415883264,
   pos 6040298498924731363753984, pos 5444085456696374551935713280, pos 5563551014029591083745280,
   neg 51037993384255737036800],
  [pos 454639321749654900026900480, pos 900890557522745703268352, neg 406589221167865069043712,
   pos 50624024903919998074880, pos 652179895850447071608832, pos 679725025617944291554885632,
   pos 982605930544070179946496, neg 140328506899039986384896, pos 271216518949412321991065600,
   pos 1272939148428413700669440, pos 61654770536649743925248, neg 454634065149332223132958720,
   neg 884128440984333897957376, pos 403375538036211229655040, neg 45461201277736391278592,
   pos 1551364386223642422280192, neg 679722598220544591041396736, neg 971298777800090906001408,
   pos 5427846587591655476428800, pos 2719676071534357478713065472, pos 4992255761787229946511360,
   neg 50744991281304548933632],
  [pos 227514634711950910302453760, pos 812024759381787202813952, neg 358510680287356326510592,
   pos 50086599265490797854720, pos 576580609582037077065728, pos 339250154231728971972608000,
   pos 874051819404147325665280, neg 126402020825938631065600, pos 135110151347984876185845760,
   pos 1126609474475316645724160, pos 61116456591380103299072, neg 227509378111628336487727104,
   neg 795262642843375531720704, pos 355296997155702487121920, neg 44923775639307191058432,
   pos 1362682176828014529085440, neg 339247726834329271459119104, neg 862744666660168051720192,
   pos 4817211556969950866309120, pos 1357692677890793440530137088, pos 4422578247397625739345920,
   neg 50206677336034975416320],
  [pos 91201184559150675439648768, pos 694705476867953008836608, neg 295495838700324272472064,
   pos 48646182978042948747264, pos 477430530454834200444928, pos 135060000545421092030775296,
   pos 731470714000851911835648, neg 107889182476096617054208, pos 53542660538355840142278656,
   pos 935030955564571562082304, pos 59673659450564622155776, neg 91195927958828050085314560,
   neg 677943360329541337743360, pos 292282155568670466637824, neg 43483359351859409059840,
   pos 1115653943787026514968576, neg 135057573148021460236763136, neg 720163561256872637890560,
   pos 4015411410632427712806912, pos 540822615659990171458207744, pos 3674327420494419813466112,
   neg 48763880195219494273024],
  [pos 45733587582630118230589440, pos 606178576204789796831232, neg 248601990388080755867648,
   pos 46511807924359856652288, pos 403552372388013352681472, pos 67069806873207923361710080,
   pos 624928433926896955162624, neg 93737311673123965239296, pos 26425969509509996600098816,
   pos 792767691519039962611712, pos 57535756504230807994368, neg 45728330982307501466189824,
   neg 589416459666378058629120, pos 245388307256426916478976, neg 41348984298176316964864,
   pos 932213561151539671728128, neg 67067379475808274387828736, neg 613621281182917681217536,
   pos 3416623596047482449035264, pos 268781155278792601800540160, pos 3115198584237289409347584,
   neg 46625977248885680111616],
  [pos 22973425841129724366028800, pos 518129175490976219660288, neg 202967274264985331564544,
   pos 42719683154645100789760, pos 331464284474492915286016, pos 33139731140249865208987648,
   pos 520504432932570127138816, neg 79349051888111689138176, pos 12928980933663581536256000,
   pos 654731902853696645496832, pos 53737443125038485078016, neg 22968209397867257723355136,
   neg 501577161349485845020672, pos 199794407026697011462144, neg 37896509460967535411200,
   pos 754553853193696386744320, neg 33137242665850273991229440, neg 509251145626693582979072,
   pos 2830722941656580468244480, pos 132982377474792500527890432, pos 2568262369299760137895936,
   neg 43299346657537498808320],
  [pos 9279959479754380263030784, pos 402928056014333359947776, neg 146135748755597457096704,
   pos 33061904467778873589760, pos 241180712075903161597952, pos 12874502995349338549387264,
   pos 388364232607710549377024, neg 59669268498378534158336, pos 4909904925987003944665088,
   pos 484096286502748172582912, pos 44063930606849112408064, neg 9274864451323704513658880,
   neg 387003680758273434189824, pos 143084774570113365966848, neg 29253614001670607339520,
   pos 535509017765674903142400, neg 12871832796324689384308736, neg 377271576614012364783616,
   pos 2091640567433841852022784, pos 51825226530563137088782336, pos 1877986699315728477061120,
   neg 35032425475201457717248],
  [pos 4687433016650722443264000, pos 317413629390412591398912, neg 107766989827416021532672,
   pos 19628759145900111036416, pos 179496593433334023979008, pos 6189933311381130587406336,
   pos 296201141481185656963072, neg 43911021773159317635072, pos 2285832193906075011907584,
   pos 370633978303511047176192, pos 30608936004150313877504, neg 4682543451877219940433920,
   neg 302526530143760018309120, pos 104917345785189215764480, neg 17498486812851316981760,
   pos 390816938708924117286912, neg 6186965206786574506786816, neg 285373028603618620604416,
   pos 1579566045056210604916736, pos 25023541367123125165096960, pos 1399546476799313265557504,
   neg 23893853932032639369216],
  [pos 2367400720372486073483264, pos 234320965435189046018048, neg 75966193450747810545664,
   neg 2476503626875991490560, pos 127174664769042647089152, pos 2908691374068721382326272,
   pos 215098067686664295153664, neg 26918037791624879144960, pos 1000354433790934115155968,
   pos 279281779550399099830272, pos 8467743862262926934016, neg 2362933433787568363667456,
   neg 221476229501937063559168, pos 73512539293064374517760, pos 1300442727834644905984,
   pos 276166540133909328297984, neg 2905145704449207020027904, neg 204787430387312175874048,
   pos 1134590795582733820100608, pos 11847514194426720241582080, pos 984064439770700601884672,
   neg 6283063935186377900032],
  [pos 1900223174148518987169792, pos 215871343601708215304192, neg 57968607424833990426624,
   pos 25526221805471045517312, pos 99663487146017119272960, pos 2253906230036564526759936,
   pos 179156041852659110510592, neg 30573493586596972199936, pos 805819319746124446695424,
   pos 207408570485432626708480, pos 32687132841276589735936, neg 1894632885192782747009024,
   neg 200362625416747571740672, pos 55327665659329543929856, neg 21102790612243703660544,
   pos 196631769684131679567872, neg 2251050084184979752878080, neg 168915573549205425225728,
   pos 921998688118681439830016, pos 9179726814244612486463488, pos 794525359663335037992960,
   neg 22181237309405631873024],
  [pos 949878279536153041305600, pos 145097124178656317407232, neg 31563756429638673367040,
   pos 16482062297767325204480, pos 55819215394427180679168, pos 1001258075346673376165888,
   pos 110235738489976482955264, neg 19064429014027010572288, pos 341066356466975235899392,
   pos 121728417216776573550592, pos 22825778176159186419712, neg 944114831668925169664000,
   neg 130908685763401226387456, pos 29409285642747570552832, neg 12905235307213973618688,
   pos 100390176844834104410112, neg 998099189935968568213504, neg 101051939336370914328576,
   pos 544464771256623170584576, pos 4113029607118506442096640, pos 450159552453363722354688,
   neg 14618178477654986981376],
  [pos 459874358800639988858880, pos 85865531671943611154432, neg 13757961848632243126272,
   pos 8314713216063522209792, pos 25399118135132657025024, pos 416174786991858550571008,
   pos 58336612863143596523520, neg 9903979041670291259392, pos 131053027444398915321856,
   pos 59568713379705213943808, pos 12412541241068596756480, neg 453877148430212823777280,
   neg 73918858092752544989184, pos 12303370814113705885696, neg 5921535440214707666944,
   pos 39264530019715939041280, neg 412620724454047818448896, neg 50919393494269081681920,
   pos 268006746697646229946368, pos 1722874506521590559145984, pos 206096672657171816644608,
   neg 6959089454070563340288],
  [pos 206347341443366962331648, pos 42228972173116022194176, neg 4274908055673273057280,
   pos 2964927589187294593024, pos 8616527567205557075968, pos 155549415259310594719744,
   pos 24871882966077561372672, neg 3928341158623763759104, pos 42321344527510477471744,
   pos 22147841898975842009088, pos 4671896252369319493632, neg 200273472028328318730240,
   neg 33580336491648232980480, pos 3575981981847741530112, neg 1790384344185979273216,
   pos 10062050258459467710464, neg 151823353490147228254208, neg 19941241500508241264640,
   pos 100479667576829244342272, pos 639378225833558436478976, pos 68103967597999738060800,
   neg 1998056186144622641152],
  [pos 120842559884653349568512, pos 24820909249852136751104, neg 1699749671225359073280,
   pos 1331309218594298003456, pos 3850842894219526275072, pos 80984385805837301448704,
   pos 13197576951558161039360, neg 1940493863868463054848, pos 19289781110183571750912,
   pos 10448203025209131794432, pos 2103782014106671775744, neg 115026314787940582031360,
   neg 18410037960711067402240, pos 1348699743777907015680, neg 693555059663872983040,
   pos 3277947827700002455552, neg 77502710785395759513600, neg 9826366084694019145728,
   pos 47542730447476215513088, pos 324696028437272766447616, pos 28800178192576996704256,
   neg 700735559642805960704],
  [pos 78954604397836785156096, pos 15958898548820452311040, neg 747317602808090329088,
   pos 683471896781638336512, pos 1987405115131980414976, pos 48495166724880595943424,
   pos 7817439687966959075328, neg 1079100831421766959104, pos 10287227506467251683328,
   pos 5598811041236827242496, pos 1061924494762349428736, neg 73568392975966734909440,
   neg 11111301380818700599296, pos 569554610087268450304, neg 310537101812577599488,
   pos 1125097753783258054656, neg 45401414869203959152640, neg 5447385674798384283648,
   pos 25370574089128368930816, pos 187776424842804338884608, pos 13857185458853781700608,
   neg 280423011649572569088],
  [pos 54842790966659477667840, pos 10862166286041639550976, neg 339055466238882349056,
   pos 383735769607799046144, pos 1124442539228550660096, pos 31417940688123413397504,
   pos 4966131378178108686336, neg 648357656720228220928, pos 6032954803759710470144,
   pos 3264212494091907235840, pos 581980653486759477248, neg 49958687652960966541312,
   neg 7133892099311572877312, pos 252118917784277090304, neg 153291729695005474816, pos 344774101136748576768,
   neg 28735822638656402751488, neg 3257818851560694743040, pos 14634916035847228751872,
   pos 116799652763721334259712, pos 7253593948735341068288, neg 123547195137524236288],
  [pos 39649044290477009928192, pos 7697654939416239538176, neg 149276513434098204672,
   pos 229817228345057738752, pos 678783323914454958080, pos 21421766099691450138624,
   pos 3315042845976043716608, neg 411626242213800443904, pos 3774897381275793883136,
   pos 2022494587864473403392, pos 339544573993065381888, neg 35279950952995991060480,
   neg 4788015473273922912256, pos 111250628263949631488, neg 81245434723375775744, pos 48900377457603903488,
   neg 19126270953024810647552, neg 2056904220811190075392, pos 8926749020445697114112,
   pos 76187747294036199735296, pos 4035683080986905542656, neg 58609063461767872512],
  [pos 29501078155256838225920, pos 5624352993125660098560, neg 57218219475692683264,
   pos 144555426404913643520, pos 430161442792357756928, pos 15146094064754701107200,
   pos 2297133910318077706240, neg 272400245379914530816, pos 2476500120593170956288,
   pos 1312355950077707026432, pos 208124795542273261568, neg 25627081730455282647040,
   neg 3324531227011902865408, pos 45707923724219449344, neg 45477411676919693312, neg 59338114923818385408,
   neg 13194927901812690255872, neg 1353305135053719732224, pos 5681498525978165510144,
   pos 51420786484031281692672, pos 2353223136441228328960, neg 29494696200401584128],
  [pos 22440113182852775936000, pos 4210082759038059151360, neg 11983807750051201024, pos 94514790648764170240,
   pos 283181163119168716800, pos 11006968307535147171840, pos 1639273722771426770944,
   neg 186224669582904786944, pos 1684703954423355801600, pos 883090072187332198400, pos 132790098389041676288,
   neg 19024595401423806529536, neg 2371839129300062175232, pos 14634846498148319232, neg 26590488631942578176,
   neg 91826865368943558656, neg 9354219503885819576320, neg 919927404967863779328, pos 3740237930098946211840,
   pos 35623835599252733558784, pos 1424831993731832872960, neg 15582116196399448064],
  [pos 17374205367555119382528, pos 3214331669020846063616, pos 9802103744959086592, pos 63772345265840717824,
   pos 192253174257373151232, pos 8174601474956527140864, pos 1198047811513631637504,
   neg 130703699249995366400, pos 1179490321257488973824, pos 611949646794434019328, pos 87587142005407350784,
   neg 14373542439580780724224, neg 1730387301265953521664, pos 67571680211369984, neg 16114713257389850624,
   neg 93887986554707640320, neg 6776619850010638417920, neg 642214745499327528960, pos 2531249890715722842112,
   pos 25203434566855145029632, pos 889996681997965066240, neg 8575016568491081728],
  [pos 13651213420960170377216, pos 2495027929573922701312, pos 19548076741081169920, pos 44171124369203920896,
   pos 133900751642415857664, pos 6180056315358941806592, pos 893112537577954476032, neg 93759247691191238656,
   pos 845380654938091159552, pos 434486845503229132800, pos 59416079334109085696, neg 11020327821114796408832,
   neg 1286418791464586706944, neg 6387308920838291456, neg 10065031147559059456, neg 84623535191925719040,
   neg 4997695103635025821696, neg 458432345449105981440, pos 1753185910431225479168,
   pos 18145604004621666222080, pos 570770894444736544768, neg 4886670026452500480],
  [pos 10861125252433573838848, pos 1964226971641954959360, pos 23063002549433794560, pos 31281752502312108032,
   pos 95299908504668602368, pos 4742653820070812188672, pos 677072121772408045568, neg 68512099025893744640,
   pos 617896904545701724160, pos 314867068578130034688, pos 41287037718041198592, neg 8556602658966816686080,
   neg 971954430200499929088, neg 8820316449814872064, neg 6451083629496893440, neg 72149694423270162432,
   neg 3741893892241266573312, neg 333506109330007523328, pos 1238545947462467584000,
   pos 13261127149240188928000, pos 374460827697705648128, neg 2870522076828008448],
  [pos 8735710646694574030848, pos 1565391479451536064512, pos 23392112087217340416, pos 22581628724473495552,
   pos 69102644637663756288, pos 3686728023295484493824, pos 520772849341821812736, neg 50867322843304656896,
   pos 459219259025080188928, pos 232214397524581023744, pos 29294613817360121856, neg 6717370893160633335808,
   neg 744784183408231186432, neg 9283117785855033344, neg 4228811281424973824, neg 59812145501548052480,
   neg 2838532123031001628672, neg 246634578516035239936, pos 890125322270260854784,
   pos 9818995908136631533568, pos 250605398747342962688, neg 1731730915981262848],
  [pos 7093846575934349508608, pos 1261018468588556648448, pos 22160301928629796864, pos 16575845340830236672,
   pos 50928427727050506240, pos 2898340755568994025472, pos 405647404886951657472, neg 38296628047462047744,
   pos 346248946451652542464, pos 173883502748348973056, pos 21169528460590186496, neg 5325408827878007635968,
   neg 577848519069364387840, neg 8822132431650816000, neg 2827558631312982016, neg 48852840073236840448,
   neg 2178188771514277429248, neg 185031154589400825856, pos 649447976553750200320,
   pos 7355239065373540089856, pos 170698277032451637248, neg 1069721276500672512],
  [pos 5810015690862817705984, pos 1025564946008545165312, pos 20240266621504716800, pos 12348155472472178688,
   pos 38076977183245467648, pos 2301400904452323409920, pos 319518618899843317760, neg 29190315156651360256,
   pos 264395496009509109760, pos 131957834371112632320, pos 15548023364156129280, neg 4259240209409439170560,
   neg 453324008837898829824, neg 7973487068359688192, neg 1924289616433643520, neg 39594656808422080512,
   neg 1688719945144993841152, neg 140593830081419804672, pos 480247342278291488768,
   pos 5567556382767305457664, pos 118119146150634192896, neg 674932633666322432],
  [pos 4795322245758234656768, pos 841234054986504077312, pos 18097159343368437760, pos 9320469800658403328,
   pos 28835329952031178752, pos 1843828954026063953920, pos 254194599051217862656, neg 22496059666590957568,
   pos 204171550279593885696, pos 101335908023627939840, pos 11585468404923891712, neg 3433864326069891366912,
   neg 359192883551275057152, neg 7008746292230750208, neg 1330505612051611648, neg 31976546458283278336,
   neg 1321423844957505978368, neg 108052171748837687296, pos 359429458669776928768,
   pos 4254583363687281590272, pos 82908366258720210944, neg 434050854207619072],
  [pos 3985636964143439282176, pos 695381441850533478400, pos 15973040283497267200, pos 7118756152426364928,
   pos 22089550945929134080, pos 1489244451463546011648, pos 204045558102707961856, neg 17510446437039339520,
   pos 159261382161937203200, pos 78652116324457644032, pos 8745744847912042496, neg 2788752404693961932800,
   neg 287185779024916905984, neg 6061039115195908096, neg 933252222735613952, neg 25797930480480288768,
   neg 1042769402209358577664, neg 83900108503472668672, pos 271952888820429488128, pos 3279676435989075591168,
   pos 58952845578173677568, neg 284023167343656960],
  [pos 3333945218563139698688, pos 578865981384281817088, pos 13986350181001265152, pos 5495584355990372352,
   pos 17099229250482864128, pos 1211766146125406404608, pos 165125671593218670592, neg 13753644809351227392,
   pos 125365931121750048768, pos 61634906021833998336, pos 6680069888721027072, neg 2280135057622433792000,
   neg 231508794018285748224, neg 5190541027884138496, neg 663230995226427392, neg 20825554257352589312,
   neg 829261826475511775232, neg 65757280901162336256, pos 207818296750805876736, pos 2548558847276201541632,
   pos 42419298869765472256, neg 188817246270783488],
  [pos 2805293619056824287232, pos 484978142387772588032, pos 12187720241051992064, pos 4284030865282957312,
   pos 13362652514168602624, pos 992696325947342192640, pos 134623289950510252032, neg 10892677960037476352,
   pos 99506232656767483904, pos 48723047647908200448, pos 5157072293985255424, neg 1875934655973112676352,
   neg 188037224895357124608, neg 4419530810028195840, neg 477024070639026176, neg 16839158338722725888,
   neg 664190771925325185024, neg 51979139433163128832, pos 160259898124498108416, pos 1995249605122533097472,
   pos 30857801951751438336, neg 127361412791009280],
  [pos 2373369297741761478656, pos 408725578206188404736, pos 10591040144616456192, pos 3369489222674153472,
   pos 10533936575077679104, pos 818338852314374209536, pos 110504515373206831104, neg 8692844109492300800,
   pos 79583775680557481984, pos 38825137030721175552, pos 4020380130021998592, neg 1552358251680858374144,
   neg 153792192921829638144, neg 3751067098653130752, neg 346908821764964352, neg 13647508563417890816,
   neg 535510293278793662464, neg 41411313954606546944, pos 124625743802166935552, pos 1572970272139828527104,
   pos 22675329343276711936, neg 87066676272562176],
  [pos 2018140266478916599808, pos 346347598112343719936, pos 9190928575705186304, pos 2672018373402951680,
   pos 8370890142407196672, pos 678535339783217741824, pos 91277722679200415744, neg 6986351498495816704,
   pos 64097869244535930880, pos 31166182409646374912, pos 3162442832539549696, neg 1291565497317561729024,
   neg 126594149057950646272, neg 3178989934962802688, neg 254877652890943488, neg 11091419718777569280,
   neg 434430660027116158976, neg 33231728669950738432, pos 97670277776583688192, pos 1248164576656508321792,
   pos 16819662567755481088, neg 60262667466571776],
  [pos 1724202236752252895232, pos 294980031211582259200, pos 7972733927769636864, pos 2135053845477195776,
   pos 6701536287200903168, pos 565668912186098188288, pos 75835991941886803968, neg 5651755646755609600,
   pos 51961902308572266496, pos 25188771791621849088, pos 2508239647151226880, neg 1080048083022974550016,
   neg 104829583919134277632, neg 2693304833756102656, neg 189049010093293568, neg 9041603826913640448,
   neg 354469030513604558848, neg 26847485988015439872, pos 77099731152409722880, pos 996507541257966321664,
   pos 12585797368886067200, neg 42193687259643904],
  [pos 1479599183151847440384, pos 252419136145911185408, pos 6917968872284749824, pos 1718045565440229376,
   pos 5402177201212751872, pos 473969177049294700544, pos 63348434101576663040, neg 4600113291522032640,
   pos 42379147077392269312, pos 20486668238045839360, pos 2004640835798302720, neg 907484924593035018240,
   neg 87290988844415975424, neg 2282934889672081408, neg 141469895618461696, neg 7394397207236968448,
   neg 290795385671403962368, neg 21825790164251967488, pos 61273072045228294144, pos 800190554470466191360,
   pos 9495085891798958080, neg 29861231978348544],
  [pos 1274973376491831689216, pos 216953739530163191808, pos 6007376418385625088, pos 1391574795564351488,
   pos 4382795122635440128, pos 399024924419241279488, pos 53185215115590041600, neg 3765611326167316480,
   pos 34759391713368735744, pos 16760645345553154048, pos 1613571617487585280, neg 765924938261504983040,
   neg 73065756121444122624, neg 1937129635744579584, neg 106746025238069248, neg 6067374638416003072,
   neg 239778662675600375808, neg 17847352502395076608, pos 49003460592129802240, pos 646059140731900002304,
   pos 7218593691135377408, neg 21346442235871232],
  [pos 1102943454928645914624, pos 187243770223624454144, pos 5222483039952142336, pos 1134062443333419008,
   pos 3577170753914667008, pos 337435069098632937472, pos 44864403029636513792, neg 3099073072515056640,
   pos 28660969031214301184, pos 13787953722212483072, pos 1307411277588463616, neg 649195597373147971584,
   neg 61457810813788094464, neg 1646089828847058944, neg 81173505332215808, neg 4995255892308918272,
   neg 198665889943811784704, neg 14674249135210102784, pos 39423707881796534272, pos 524314463618027487232,
   pos 5527701827644030976, neg 15403789378912256],
  [pos 957645157948815572992, pos 162231569800151171072, pos 4546358876724953088, pos 929518409727606784,
   pos 2936104579558801408, pos 286556950572329598976, pos 38014123324950822912, neg 2563426297562283008,
   pos 23750420624945709056, pos 11401235400979644416, pos 1065911497592406016, neg 552470897450830266368,
   neg 51931736904956903424, neg 1401198964413300736, neg 62180008373780480, neg 4126442528987676672,
   neg 165353577658284244992, neg 12127566439308853248, pos 31894232499706920960, pos 427600345069684523008,
   pos 4261835951342354432, neg 11214231216062464]]

/-- `XYZ_raw[k, g, n, 4]` times `2 ^ 78`, for the size ratio 100: list `n` belongs to row `n` of
`values_of_s_dash.txt` and has the eleven scalars for `g = 0` and then those for `g = 1`:
`resistance_scalars/data.py` lines 26-33, `resistance_scalars/scalars_general_resistance_d.npy`. -/
def shipped_100 : List (List Int) := [
  [pos 587148102842588361023029248, pos 1178098751332100245291008, neg 332653384138522437353472,
   pos 59134105491220264386560, pos 692453380450826022027264, pos 877586993140674006823731200,
   pos 1229367631527581908467712, neg 211545339018309032476672, pos 350342178829607069970071552,
   pos 1526790510702062605434880, pos 130255907768835097231360, neg 587148397106503646391042048,
   neg 1175435174793395379896320, pos 333012102525159645118464, neg 58849972684039970095104,
   pos 16070603248203592848375808, neg 877586058563557209923387392, neg 1229102402913626388168704,
   pos 62091629915499013542510592, pos 35104394041084523669752905728, pos 74011219882541376310607872,
   neg 110670217629231017361408],
  [pos 293761796935766925021020160, pos 1069349593173259966218240, neg 290463832911584457392128,
   pos 58376534587307565514752, pos 610288163772932311482368, pos 437808094071634617257951232,
   pos 1088524137290789168349184, neg 191396991269625757958144, pos 174548490363611714888400896,
   pos 1334830243157244316221440, pos 129364646134481839718400, neg 293762091199682210389032960,
   neg 1066686016634555100823552, pos 290822551298221665157120, neg 58092401780127271223296,
   pos 14022353702669140453490688, neg 437807159494517751638130688, neg 1088258908676833782267904,
   pos 54959409437866232006049792, pos 17513119508713952801506459648, pos 65668764895156025778241536,
   neg 109778955994877759848448],
  [pos 117698776749636569633128448, pos 925943696757280359841792, neg 235444942605295701458944,
   pos 56290996816817105666048, pos 502818556803082608443392, pos 174108900376909983971803136,
   pos 904188243586338686763008, neg 164729746717167218327552, pos 69220470555977267153993728,
   pos 1085012420703789003046912, pos 126911067476388518821888, neg 117699071013551855001141248,
   neg 923280120218575494447104, pos 235803660991932909223936, neg 56006864009636811374592,
   pos 11351803141027661864763392, neg 174107965799793049632505856, neg 903923014972383300681728,
   pos 45625223001162859681939456, pos 6964998180479743366069747712, pos 54749755973321034804756480,
   neg 107325377336784438951936],
  [pos 58987035720626132716879872, pos 817984498383723129995264, neg 194941306126177597915136,
   pos 53105150665883954184192, pos 423222323237831506395136, pos 86337409417031718388367360,
   pos 767486562269494484402176, neg 144508427306477180420096, pos 34220428262285339611103232,
   pos 901877152394319058960384, pos 123163005832767391924224, neg 58987329984541426674827264,
   neg 815320921845018264600576, pos 195300024512814805680128, neg 52821017858703659892736,
   pos 9386628388396846582595584, neg 86336474839914801228939264, neg 767221333655539098320896,
   pos 38703771759304367520350208, pos 3454027050782992366139604992, pos 46651715179624635180253184,
   neg 103577315693163312054272],
  [pos 29609875074652621961691136, pos 710893020089150785716224, neg 156289538695200241614848,
   pos 47252000148338140774400, pos 346447952591896321196032, pos 42562912847378736016785408,
   pos 635334396377795684990976, neg 124206953213102487764992, pos 16808949520319367562133504,
   pos 728435578830761060466688, pos 116276932899606821339136, neg 29610169338567907329703936,
   neg 708229443550445920321536, pos 156648257081837449379840, neg 46967867341157846482944,
   pos 7512705959086075892727808, neg 42561978270261836037226496, neg 635069167763840298909696,
   pos 32013836983262161466818560, pos 1702943471761189681854676992, pos 38822147676684252876898304,
   neg 96691242760002741469184],
  [pos 11953500893273843283525632, pos 571912142156664011751424, neg 110714425219469436518400,
   pos 31564298007817633136640, pos 253368695566680488673280, pos 16448821608540734987698176,
   pos 474199175745281135214592, neg 97130952469972491698176, pos 6462780426962286319501312,
   pos 528051645851943017906176, pos 97820776549365229551616, neg 11953795157189130799022080,
   neg 569248565617959213465600, pos 111073143606106627506176, neg 31280165200637338845184,
   pos 5307505027632108790611968, neg 16447887031423835008139264, neg 473933947131325682024448,
   pos 23860290094343707028357120, pos 658265891427542197916925952, pos 29272243036360679159234560,
   neg 78235086409761149681664],
  [pos 6045681443970618239221760, pos 470478749829259816075264, neg 84138020038182009044992,
   pos 8318629106318510653440, pos 194994663217755150352384, pos 7846541015382713769656320,
   pos 371712739657665508016128, neg 76306818940687356002304, pos 3053454563755418879787008,
   pos 417819118152519002357760, pos 70472877164925332488192, neg 6045975707885905754718208,
   neg 467815173290555017789440, pos 84496738424819200032768, neg 8034496299138216361984,
   pos 4028605697457536603521024, neg 7845606438265814863839232, neg 371447511043710054825984,
   pos 18679989703131310189445120, pos 314121649833120571643133952, pos 23193291886791133591764992,
   neg 50887187025321252618240],
  [pos 3073273977819752057274368, pos 374934959173194754293760, neg 70100937965090562375680,
   neg 32987290004375407165440, pos 155727397946405444124672, pos 3614363739351357943971840,
   pos 300031391569521558945792, neg 54939956000832857571328, pos 1322874655298616836489216,
   pos 373222364455861686894592, pos 21877583293252099899392, neg 3073573042363804902490112,
   neg 372497653721232920543232, pos 70464181103125908684800, pos 32832725598489211305984,
   pos 3367817159949526675488768, neg 3613418544450759246741504, neg 299773479825813708734464,
   pos 15067857034709296887103488, pos 144832085137367293348544512, pos 18933971850193987793059840,
   neg 3007646147673147310080],
  [pos 1267247667112455857766400, pos 265116656914068804730880, neg 86674127230968015093760,
   neg 138187553232529645371392, pos 157347575470288474734592, pos 1112158977378367823675392,
   pos 291575493186363701854208, neg 25174017277228608389120, pos 78009088491879460241408,
   pos 498150966086476064882688, neg 101887673873211068514304, neg 1267562436377811135496192,
   neg 263356019477468491546624, pos 87050900915573735030784, pos 136722142331550719541248,
   pos 4225697446767583138152448, neg 1111182153753286729007104, neg 291339419601893928730624,
   pos 14685533472707901587980288, pos 44884637666434948708433920, pos 18399188253899707283144704,
   pos 118623173624386369355776],
  [pos 653119361541160350777344, pos 203794400599997415424000, neg 145554233510946259599360,
   neg 284516312011168710393856, pos 229188780164442765656064, pos 225411565281945472466944,
   pos 399029123969505365590016, neg 651116160228417601536, neg 717361314398999280615424,
   pos 835235243081946011533312, neg 274039490636846888648704, neg 653464602416010160504832,
   neg 203154444444697234505728, pos 145953413457895034454016, pos 280883510526247505494016,
   pos 7158849723712229913657344, neg 224382768251788083593216, neg 398829076036884398866432,
   pos 20191430123908063414976512, pos 9710252851098732187353088, pos 24717800018283874578595840,
   pos 287259888455971913072640],
  [pos 342710598223036229353472, pos 173273113575132034498560, neg 270028302674457104744448,
   neg 525319651356011172724736, pos 400978974147248302063616, neg 378461696783601499111424,
   pos 667626282088884481294336, pos 26710841949748035846144, neg 1762071660392668899311616,
   pos 1515665374670703541878784, neg 557338089288984506138624, neg 343132558901025341177856,
   neg 174848283966515961659392, pos 270471760411104756367360, pos 517416181553562967343104,
   pos 13325275484234324190953472, pos 379591717520825473040384, neg 667496919354642677104640,
   pos 33900274302374061742751744, neg 13883418700139011197894656, pos 40553952321245731581067264,
   pos 563683610349303471538176],
  [pos 238141748938044499558400, pos 84652068251457921482752, neg 4559059580429737656320,
   pos 2858644756851255672832, pos 7405834201618679070720, pos 105413009259415858053120,
   pos 27142279554766460682240, neg 2281326261173498413056, pos 21452511405236541194240,
   pos 14521288083794030493696, pos 4725717347821405863936, neg 238000000724814843084800,
   neg 82146565873411288989696, pos 4453327415587830235136, neg 2688268317214745034752,
   pos 215034934486544232218624, neg 105363579425782801367040, neg 26385764581218621325312,
   pos 1313672522122303390089216, pos 4280693818251679597854720, pos 1501128548290401344159744,
   neg 4258147971915208196096],
  [pos 122460975019546397114368, pos 46423217053332903297024, neg 1237478595144561197056,
   pos 762526648707573612544, pos 1957071743602946736128, pos 38785312472032637616128,
   pos 10719195578956714606592, neg 731520557787274936320, pos 6084443584292584423424,
   pos 4286332221523178291200, pos 1372316738638795767808, neg 122268846082466242363392,
   neg 44192478152494103396352, pos 1183641643564444155904, neg 689846670904625463296,
   pos 56633550257149192437760, neg 38730875402712778801152, neg 10217724365370579484672,
   pos 504594932624954253901824, pos 1589243196897626907738112, pos 562835481627886849359872,
   neg 1160426392831643353088],
  [pos 59804294009030757580800, pos 22529263002096291020800, neg 286374527861802401792,
   pos 151413960655801155584, pos 392398852936452538368, pos 12775547136180045742080,
   pos 3569050725617359126528, neg 175161909769046917120, pos 1401836293405481631744,
   pos 992466651917435535360, pos 298073718697496674304, neg 59527920944717666189312,
   neg 20685330098163306987520, pos 263635530572875956224, neg 127241639965067575296,
   pos 12454987500203448205312, neg 12718975768084856438784, neg 3279751185876065452032,
   pos 159641139137093635670016, pos 529424276994635501404160, pos 169772712217905916280832,
   neg 223016242317013024768],
  [pos 26926676310855704903680, pos 9328899397242987741184, neg 65616307145406316544, pos 23191371678851530752,
   pos 61690739875865690112, pos 3684811823219257901056, pos 975976668129957380096, neg 31031437607635746816,
   pos 248500040811574984704, pos 172898345854062034944, pos 46921745279198691328, neg 26541608396217812779008,
   neg 8005187988661827796992, pos 56397035385551060992, neg 16933115362960998400, pos 2612542312493740982272,
   neg 3632772723272620441600, neg 837836383230588616704, pos 39681438696754676498432,
   pos 153415624398552520720384, pos 38467881405438599626752, neg 27778864543583698944],
  [pos 15922195977984374996992, pos 5055738595024905961472, neg 25117580738333908992, pos 6971522423761928192,
   pos 18978920205209567232, pos 1679153176726969778176, pos 413892916800642547712, neg 10081604080992944128,
   pos 80717363232443990016, pos 54834218140822405120, pos 13654957986160836608, neg 15484564393597987717120,
   neg 4073641091183077752832, pos 20271384747815469056, neg 4452956148974223360, pos 917656240037117820928,
   neg 1633241266315481579520, neg 333563467331257499648, pos 15380358640300948717568,
   pos 69129490371919447326720, pos 13643941011284541046784, neg 6468538975190515712],
  [pos 10538781249766642679808, pos 3098767373938326503424, neg 11080484025747185664, pos 2833754197051047936,
   pos 7867295786478862336, pos 932472593227029544960, pos 214043844881786601472, neg 4352577937078068736,
   pos 34725298430007050240, pos 22978917609815146496, pos 5283853810903547904, neg 10085043209647524151296,
   neg 2353760012884173127680, pos 8432625965848330240, neg 1592726012708257792, pos 372029852935209877504,
   neg 892429451912005812224, neg 162600897300985806848, pos 7300558384806148177920,
   pos 37564162335732844724224, pos 5948280346692452089856, neg 2022436179416186880],
  [pos 7424776567890076762112, pos 2044005046264208031744, neg 5014844111984697344, pos 1367790245797429248,
   pos 3861141531826061312, pos 578254366408930885632, pos 124385481522532433920, neg 2220520310137753344,
   pos 17698274998923296768, pos 11399055263433490432, pos 2430582975906185216, neg 6977841674787001204736,
   neg 1468729494567385038848, pos 3612308801514373120, neg 680074599920041984, pos 154960732583268188160,
   neg 543496171976219164672, neg 89382226571531911168, pos 3908439818402512502784,
   pos 22630994337310078664704, pos 2934854249913656541184, neg 758365561213157376],
  [pos 5443826164134395772928, pos 1416879198883448619008, neg 2160237129763233792, pos 737437782267396096,
   pos 2111419529371320320, pos 384042315345031987200, pos 78005817990371049472, neg 1259980374862115840,
   pos 10055701195881709568, pos 6307996434989842432, pos 1252647555058106368, neg 5017475513000472346624,
   neg 966108583690768482304, pos 1478213008847011840, neg 325930891245256704, pos 61448972380332359680,
   neg 353990673022968135680, neg 53189567049995911168, pos 2265597012157900259328,
   pos 14529065759082306076672, pos 1572870188518669811712, neg 321182602868293632],
  [pos 4105159942173859250176, pos 1018489016665231065088, neg 763754522021806080, pos 429551671425630208,
   pos 1244869545781362688, pos 267209546280834236416, pos 51632737338636296192, neg 769226694734940800,
   pos 6158295958833594368, pos 3768019089893621760, pos 699917257072967680, neg 3706991159839119376384,
   neg 660832133239332143104, pos 498804196423237632, neg 169518938667876352, pos 19875557862390366208,
   neg 241306456295856406528, neg 33500913281581711360, pos 1390331659041497939968, pos 9737789093537772470272,
   pos 895026207070988795904, neg 148579764762836992],
  [pos 3162004721005685112832, pos 752938536744997879808, neg 75152890804682752, pos 264961413720571904,
   pos 775925333105836032, pos 192323563551583174656, pos 35593280671932006400, neg 495444976232902144,
   pos 3985614258070093824, pos 2383079014249005056, pos 415942369481850880, neg 2795521861654681747456,
   neg 466043338452291813376, pos 48610968003936256, neg 93752610858729472, pos 1490753311605784576,
   neg 170040987878485917696, neg 22030547105045151744, pos 891067202272961232896, pos 6734823743888291790848,
   pos 533364163097441337344, neg 73608868940218368],
  [pos 2476702477523263422464, pos 569257545992406827008, pos 253257536599592960, pos 170827769586909184,
   pos 504797979039760384, pos 142028747681056751616, pos 25323326424887861248, neg 332287833386932288,
   pos 2688642842045186048, pos 1574124151390601216, pos 259298339353264128, neg 2142799029546417913856,
   neg 336895890619598110720, neg 148494463507103744, neg 54403214753136640, neg 6141182881726201856,
   neg 122885574403015835648, neg 14986288238722547712, pos 590927039082218389504, pos 4771153400209157914624,
   pos 329723917928604106752, neg 38500053630844928],
  [pos 1966809497093386797056, pos 438418337034921836544, pos 395249036138559488, pos 114096369999806464,
   pos 339820303808987136, pos 107045995620500406272, pos 18480268453954854912, neg 230071556796243200,
   pos 1873610818096988160, pos 1076249098870325248, pos 168029697916010496, neg 1664761292947135135744,
   neg 248596498454392340480, neg 223176729790775296, neg 32821358794637312, neg 8759915473325260800,
   neg 90609605721506447360, neg 10478480657311465472, pos 402934663467619057664, pos 3445749460325711740928,
   pos 210081277445821956096, neg 21057284952031232],
  [pos 1580151187835256307712, pos 342951243558116392960, pos 440434560111489024, pos 78443252897808384,
   pos 235250644254982144, pos 82035819051065278464, pos 13771831838931398656, neg 163454505199784128,
   pos 1340184317866803200, pos 756734987448877056, pos 112431185275125760, neg 1308290591052531761152,
   neg 186672099556641996800, neg 239081592695291904, neg 20450771170492416, neg 9082735716227612672,
   neg 67923637589616623616, neg 7495847930311868416, pos 281192466454945988608, pos 2528588187981869744128,
   pos 137296110114085797888, neg 11958503224639488],
  [pos 1282309039106442657792, pos 271878287750198198272, pos 436303471451590656, pos 55253923857956864,
   pos 166717901221396480, pos 63754590753436516352, pos 10445360101274808320, neg 118629779278505264,
   pos 979424123606269952, pos 544563617656209408, pos 77287895085350912, neg 1038469284671654985728,
   neg 142303335296446496768, neg 227905815161602048, neg 13096183081730048, neg 8418237083272871936,
   neg 51632411969000570880, neg 5466947881996648448, pos 200138397254475055104, pos 1880961186789209407488,
   pos 91704685610571661312, neg 7013579878301696],
  [pos 1049819256796366241792, pos 218052261742429339648, pos 408392930087067648, pos 39731682940551168,
   pos 120531423802163200, pos 50144810991723347968, pos 8042565625542593536, neg 87662979338681664,
   pos 728774011013562368, pos 399622192964304896, pos 54370969178865664, neg 831621535951031894016,
   neg 109922559499173888000, neg 205547196831498240, neg 8586582537797632, neg 7396353509936857088,
   neg 39723334689319026688, neg 4054163047239516160, pos 144893620123607236608, pos 1415874394019067854848,
   pos 62426098655909904384, neg 4230172991553536],
  [pos 866256564070624788480, pos 176680847611191623680, pos 370494328836493312, pos 29084655038758912,
   pos 88657774640103424, pos 39855250299553726464, pos 6274003029471834112, neg 65791918938436168,
   pos 550684738742910976, pos 298229195778031616, pos 39025917875453952, neg 671290177071066644480,
   neg 85909209259731582976, neg 179911147709005824, neg 5747077250285568, neg 6313876479549636608,
   neg 30885638727993393152, neg 3050528293948948480, pos 106475125961379545088, pos 1077036722141479829504,
   pos 43213513578256531456, neg 2615195998355456],
  [pos 719861103939593175040, pos 144467027184486187008, pos 329901715822205952, pos 21626018657730560,
   pos 66206314539253760, pos 31971137071359336448, pos 4950714153358565376, neg 50047652952282504,
   pos 421667922201542656, pos 225811607849009152, pos 28505404946251776, neg 545793809945624313856,
   neg 67847420206045462528, neg 154760431732523008, neg 3917308355411968, neg 5301221941569388544,
   neg 24240650498332950528, neg 2324943997322395648, pos 79281951037699653632, pos 827038512288406437888,
   pos 30363564040905555968, neg 1652416657227776],
  [pos 602064675947610636288, pos 119095665431276421120, pos 290432639616902144, pos 16303989255569408,
   pos 50106989065273344, pos 25860066423155359744, pos 3946515209961323520, neg 38527914799461680,
   pos 326677248549584896, pos 173182604189630464, pos 21147908468375552, neg 446703314441009627136,
   neg 54090666844576808960, neg 131778853786615808, neg 2713924629692416, neg 4408741459075792896,
   neg 19187178760917483520, neg 1792339708477440000, pos 59735809826964373504, pos 640534704255953534976,
   pos 21623714106197409792, neg 1064819362889728],
  [pos 506517862558071783424, pos 98907999001078923264, pos 253887894846105600, pos 12444339913359360,
   pos 38379030436642816, pos 21074253945516060672, pos 3174788785350816768, neg 29976585008056320,
   pos 255718878309515264, pos 134332484157440000, pos 15908066822193152, neg 367840439318284861440,
   neg 43493911693008830464, neg 111548064725991424, neg 1907983881601024, neg 3646861809459134464,
   neg 15304589249990885376, neg 1396022114238726144, pos 45490691363871653888, pos 499998299477671673856,
   pos 15588576136672575488, neg 698424693358592],
  [pos 428453569468062236672, pos 82696693571758587904, pos 220997911590868992, pos 9604485458427904,
   pos 29714677080522752, pos 17291733025725816832, pos 2575047418567434240, neg 23547353936775268,
   pos 202038731870306304, pos 105259061666119680, pos 12116109318684672, neg 304620566674201903104,
   neg 35247642319704293376, neg 94122261965438976, neg 1359340791398400, neg 3008495956162248704,
   neg 12294139987780173824, neg 1097508500081213440, pos 34979681129495265280, pos 393135891971087269888,
   pos 11363800665349423104, neg 465529160597504],
  [pos 364248883536739696640, pos 69569892221353721856, pos 191911543442281472, pos 7487698679889920,
   pos 23232464470147072, pos 14277370534426812416, pos 2104281396744808960, neg 18658397085067216,
   pos 160974676389003264, pos 83237962522820608, pos 9332714624778240, neg 253602541629658365952,
   neg 28770737745106567168, neg 79309498027606016, neg 980295373291520, neg 2479576314550419456,
   neg 9940478320081108992, neg 870191033773129728, pos 27136907107847110656, pos 311203727409353326592,
   pos 8369401504544587776, neg 314904227610624],
  [pos 311119573747320750080, pos 58859699883800002560, pos 166466006692046848, pos 5891262557192192,
   pos 18327158833283072, pos 11856912558554537984, pos 1731370398795731968, neg 14902127601712164,
   pos 129240173027262464, pos 66373280319143936, pos 7262564882841600, neg 212176339038556389376,
   neg 23640133857483685888, neg 66815735304028160, neg 714872362893312, neg 2044137434605682688,
   neg 8086200194305884160, neg 695349941689843712, pos 21224857726261133312, pos 247901867213924073472,
   pos 6222674567370899456, neg 215911754629120],
  [pos 266906431010900017152, pos 50060373460290371584, pos 144362904445916160, pos 4674360547737600,
   pos 14576454423543808, pos 9899901315935408128, pos 1433536805908119808, neg 11989155301009524,
   pos 104492982643720192, pos 53330581131362304, pos 5704878491959296, neg 178344959260573564928,
   neg 19544154486463266816, neg 56327763841515520, neg 526706465046528, neg 1686971952660480000,
   neg 6615086980235788288, neg 559646314434691072, pos 16726532210223480832, pos 198646293801478389760,
   pos 4667455006356537344, neg 149901750042624],
  [pos 229919285440757628928, pos 42784515954181144576, pos 125244983687408640, pos 3737672002568192,
   pos 11681203547537408, pos 8307444411395031040, pos 1193854118091351808, neg 9710715426918490,
   pos 85032301947256832, pos 43151734125625344, pos 4519951910043648, neg 150566965158315294720,
   neg 16250455767717511168, neg 47544792299077632, neg 391786522476544, neg 1394472713084469248,
   neg 5440318419702906880, neg 453432505673515008, pos 13274197961274818560, pos 160064692622614069248,
   pos 3529733560619499520, neg 105283660546048],
  [pos 198825075228113108992, pos 36732636660959805440, pos 108751637665507840, pos 3010183194214400,
   pos 9426691327787008, pos 7003942787754721280, pos 999622947083524096, neg 7914538724494722,
   pos 69611765117222912, pos 35142175511543808, pos 3609627082096640, neg 127643772419582197760,
   neg 13584101256590262272, neg 40197156631871488, neg 294023512195072, neg 1155009667324182528,
   neg 4496487334383452160, neg 369656174491992064, pos 10603432749278691328, pos 129655501834057416704,
   pos 2689878333981720576, neg 74746037272576],
  [pos 172564484635041464320, pos 31671063642801963008, pos 94541247906430976, pos 2440478666522624,
   pos 7656894554439680, pos 5931061993967984640, pos 841208107988024064, neg 6488222492592909,
   pos 57306250559356928, pos 28791473860247552, pos 2903839267094528, neg 108636642440246198272,
   neg 11412097533007101952, neg 34050212150902784, neg 222489728778240, neg 958847078738427904,
   neg 3733872231654883328, neg 303102621321101312, pos 8521920991079694336, pos 105546894102847553536,
   pos 2064650750402756608, neg 53600930758656],
  [pos 150290157473542176768, pos 27416013618903252992, pos 82303893976867840, pos 1990904374099968,
   pos 6257171088015360, pos 5043445373862037504, pos 711234640674806272, neg 5347972951054007,
   pos 47422793351954432, pos 23720875131928576, pos 2352049987518464, neg 92805580768730415104,
   neg 9632461426178129920, neg 28904285959487488, neg 169669776375808, neg 797961712333488128,
   neg 3114388179835158528, neg 249879001564299264, pos 6888427479153770496, pos 86327725665307066368,
   pos 1595516842149937152, neg 38800970481664]]

end SD
