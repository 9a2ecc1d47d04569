/-!
# The lookup table `py/desimeter/data/focal_surface_lookup.csv`

All 501 rows (file lines 8-508), one list per column, in units of 1e-9 mm
(1e-9 degree for `N`): every value in the file has at most nine decimals, so
the integers are exact.
-/

namespace Verif.Model.RsznTable

/-- Column `R` of focal_surface_lookup.csv, times 10^9. -/
def R : List Int :=
  [0, 1000000000, 2000000000, 3000000000, 4000000000, 5000000000, 6000000000, 7000000000,
    8000000000, 9000000000, 10000000000, 11000000000, 12000000000, 13000000000, 14000000000,
    15000000000, 16000000000, 17000000000, 18000000000, 19000000000, 20000000000, 21000000000,
    22000000000, 23000000000, 24000000000, 25000000000, 26000000000, 27000000000, 28000000000,
    29000000000, 30000000000, 31000000000, 32000000000, 33000000000, 34000000000, 35000000000,
    36000000000, 37000000000, 38000000000, 39000000000, 40000000000, 41000000000, 42000000000,
    43000000000, 44000000000, 45000000000, 46000000000, 47000000000, 48000000000, 49000000000,
    50000000000, 51000000000, 52000000000, 53000000000, 54000000000, 55000000000, 56000000000,
    57000000000, 58000000000, 59000000000, 60000000000, 61000000000, 62000000000, 63000000000,
    64000000000, 65000000000, 66000000000, 67000000000, 68000000000, 69000000000, 70000000000,
    71000000000, 72000000000, 73000000000, 74000000000, 75000000000, 76000000000, 77000000000,
    78000000000, 79000000000, 80000000000, 81000000000, 82000000000, 83000000000, 84000000000,
    85000000000, 86000000000, 87000000000, 88000000000, 89000000000, 90000000000, 91000000000,
    92000000000, 93000000000, 94000000000, 95000000000, 96000000000, 97000000000, 98000000000,
    99000000000, 100000000000, 101000000000, 102000000000, 103000000000, 104000000000,
    105000000000, 106000000000, 107000000000, 108000000000, 109000000000, 110000000000,
    111000000000, 112000000000, 113000000000, 114000000000, 115000000000, 116000000000,
    117000000000, 118000000000, 119000000000, 120000000000, 121000000000, 122000000000,
    123000000000, 124000000000, 125000000000, 126000000000, 127000000000, 128000000000,
    129000000000, 130000000000, 131000000000, 132000000000, 133000000000, 134000000000,
    135000000000, 136000000000, 137000000000, 138000000000, 139000000000, 140000000000,
    141000000000, 142000000000, 143000000000, 144000000000, 145000000000, 146000000000,
    147000000000, 148000000000, 149000000000, 150000000000, 151000000000, 152000000000,
    153000000000, 154000000000, 155000000000, 156000000000, 157000000000, 158000000000,
    159000000000, 160000000000, 161000000000, 162000000000, 163000000000, 164000000000,
    165000000000, 166000000000, 167000000000, 168000000000, 169000000000, 170000000000,
    171000000000, 172000000000, 173000000000, 174000000000, 175000000000, 176000000000,
    177000000000, 178000000000, 179000000000, 180000000000, 181000000000, 182000000000,
    183000000000, 184000000000, 185000000000, 186000000000, 187000000000, 188000000000,
    189000000000, 190000000000, 191000000000, 192000000000, 193000000000, 194000000000,
    195000000000, 196000000000, 197000000000, 198000000000, 199000000000, 200000000000,
    201000000000, 202000000000, 203000000000, 204000000000, 205000000000, 206000000000,
    207000000000, 208000000000, 209000000000, 210000000000, 211000000000, 212000000000,
    213000000000, 214000000000, 215000000000, 216000000000, 217000000000, 218000000000,
    219000000000, 220000000000, 221000000000, 222000000000, 223000000000, 224000000000,
    225000000000, 226000000000, 227000000000, 228000000000, 229000000000, 230000000000,
    231000000000, 232000000000, 233000000000, 234000000000, 235000000000, 236000000000,
    237000000000, 238000000000, 239000000000, 240000000000, 241000000000, 242000000000,
    243000000000, 244000000000, 245000000000, 246000000000, 247000000000, 248000000000,
    249000000000, 250000000000, 251000000000, 252000000000, 253000000000, 254000000000,
    255000000000, 256000000000, 257000000000, 258000000000, 259000000000, 260000000000,
    261000000000, 262000000000, 263000000000, 264000000000, 265000000000, 266000000000,
    267000000000, 268000000000, 269000000000, 270000000000, 271000000000, 272000000000,
    273000000000, 274000000000, 275000000000, 276000000000, 277000000000, 278000000000,
    279000000000, 280000000000, 281000000000, 282000000000, 283000000000, 284000000000,
    285000000000, 286000000000, 287000000000, 288000000000, 289000000000, 290000000000,
    291000000000, 292000000000, 293000000000, 294000000000, 295000000000, 296000000000,
    297000000000, 298000000000, 299000000000, 300000000000, 301000000000, 302000000000,
    303000000000, 304000000000, 305000000000, 306000000000, 307000000000, 308000000000,
    309000000000, 310000000000, 311000000000, 312000000000, 313000000000, 314000000000,
    315000000000, 316000000000, 317000000000, 318000000000, 319000000000, 320000000000,
    321000000000, 322000000000, 323000000000, 324000000000, 325000000000, 326000000000,
    327000000000, 328000000000, 329000000000, 330000000000, 331000000000, 332000000000,
    333000000000, 334000000000, 335000000000, 336000000000, 337000000000, 338000000000,
    339000000000, 340000000000, 341000000000, 342000000000, 343000000000, 344000000000,
    345000000000, 346000000000, 347000000000, 348000000000, 349000000000, 350000000000,
    351000000000, 352000000000, 353000000000, 354000000000, 355000000000, 356000000000,
    357000000000, 358000000000, 359000000000, 360000000000, 361000000000, 362000000000,
    363000000000, 364000000000, 365000000000, 366000000000, 367000000000, 368000000000,
    369000000000, 370000000000, 371000000000, 372000000000, 373000000000, 374000000000,
    375000000000, 376000000000, 377000000000, 378000000000, 379000000000, 380000000000,
    381000000000, 382000000000, 383000000000, 384000000000, 385000000000, 386000000000,
    387000000000, 388000000000, 389000000000, 390000000000, 391000000000, 392000000000,
    393000000000, 394000000000, 395000000000, 396000000000, 397000000000, 398000000000,
    399000000000, 400000000000, 401000000000, 402000000000, 403000000000, 404000000000,
    405000000000, 406000000000, 407000000000, 408000000000, 409000000000, 410000000000,
    411000000000, 412000000000, 413000000000, 414000000000, 415000000000, 416000000000,
    417000000000, 418000000000, 419000000000, 420000000000, 421000000000, 422000000000,
    423000000000, 424000000000, 425000000000, 426000000000, 427000000000, 428000000000,
    429000000000, 430000000000, 431000000000, 432000000000, 433000000000, 434000000000,
    435000000000, 436000000000, 437000000000, 438000000000, 439000000000, 440000000000,
    441000000000, 442000000000, 443000000000, 444000000000, 445000000000, 446000000000,
    447000000000, 448000000000, 449000000000, 450000000000, 451000000000, 452000000000,
    453000000000, 454000000000, 455000000000, 456000000000, 457000000000, 458000000000,
    459000000000, 460000000000, 461000000000, 462000000000, 463000000000, 464000000000,
    465000000000, 466000000000, 467000000000, 468000000000, 469000000000, 470000000000,
    471000000000, 472000000000, 473000000000, 474000000000, 475000000000, 476000000000,
    477000000000, 478000000000, 479000000000, 480000000000, 481000000000, 482000000000,
    483000000000, 484000000000, 485000000000, 486000000000, 487000000000, 488000000000,
    489000000000, 490000000000, 491000000000, 492000000000, 493000000000, 494000000000,
    495000000000, 496000000000, 497000000000, 498000000000, 499000000000, 500000000000]

/-- Column `Z` of focal_surface_lookup.csv, times 10^9. -/
def Z : List Int :=
  [0, -100000, -402000, -904000, -1607000, -2511000, -3616000, -4922000, -6430000, -8138000,
    -10047000, -12158000, -14470000, -16983000, -19698000, -22614000, -25733000, -29053000,
    -32574000, -36298000, -40224000, -44353000, -48683000, -53217000, -57953000, -62892000,
    -68034000, -73379000, -78928000, -84680000, -90636000, -96797000, -103161000, -109730000,
    -116503000, -123482000, -130665000, -138054000, -145648000, -153449000, -161455000,
    -169668000, -178087000, -186713000, -195546000, -204587000, -213835000, -223291000,
    -232956000, -242829000, -252911000, -263203000, -273703000, -284414000, -295334000,
    -306465000, -317807000, -329360000, -341125000, -353101000, -365289000, -377690000,
    -390303000, -403130000, -416170000, -429424000, -442892000, -456574000, -470472000,
    -484585000, -498913000, -513458000, -528218000, -543196000, -558391000, -573803000,
    -589433000, -605281000, -621348000, -637634000, -654140000, -670865000, -687810000,
    -704975000, -722362000, -739970000, -757799000, -775851000, -794125000, -812621000,
    -831341000, -850285000, -869452000, -888843000, -908460000, -928301000, -948367000,
    -968660000, -989178000, -1009923000, -1030895000, -1052094000, -1073521000, -1095175000,
    -1117058000, -1139169000, -1161510000, -1184079000, -1206879000, -1229908000, -1253168000,
    -1276658000, -1300379000, -1324332000, -1348516000, -1372932000, -1397580000, -1422461000,
    -1447575000, -1472921000, -1498501000, -1524315000, -1550363000, -1576645000, -1603162000,
    -1629914000, -1656900000, -1684122000, -1711579000, -1739273000, -1767202000, -1795367000,
    -1823769000, -1852408000, -1881284000, -1910397000, -1939747000, -1969334000, -1999160000,
    -2029223000, -2059525000, -2090064000, -2120842000, -2151859000, -2183114000, -2214608000,
    -2246341000, -2278314000, -2310525000, -2342976000, -2375666000, -2408596000, -2441765000,
    -2475174000, -2508823000, -2542712000, -2576840000, -2611209000, -2645817000, -2680666000,
    -2715754000, -2751083000, -2786652000, -2822461000, -2858510000, -2894799000, -2931329000,
    -2968098000, -3005107000, -3042357000, -3079846000, -3117575000, -3155544000, -3193753000,
    -3232201000, -3270890000, -3309817000, -3348984000, -3388391000, -3428036000, -3467921000,
    -3508044000, -3548407000, -3589008000, -3629848000, -3670926000, -3712242000, -3753796000,
    -3795589000, -3837619000, -3879886000, -3922391000, -3965133000, -4008112000, -4051328000,
    -4094780000, -4138468000, -4182393000, -4226553000, -4270949000, -4315581000, -4360447000,
    -4405549000, -4450885000, -4496455000, -4542260000, -4588298000, -4634570000, -4681075000,
    -4727814000, -4774785000, -4821988000, -4869424000, -4917091000, -4964991000, -5013121000,
    -5061482000, -5110075000, -5158897000, -5207950000, -5257233000, -5306745000, -5356486000,
    -5406456000, -5456655000, -5507082000, -5557737000, -5608620000, -5659730000, -5711068000,
    -5762632000, -5814423000, -5866440000, -5918683000, -5971151000, -6023845000, -6076764000,
    -6129908000, -6183276000, -6236869000, -6290685000, -6344725000, -6398989000, -6453476000,
    -6508186000, -6563118000, -6618273000, -6673650000, -6729249000, -6785071000, -6841113000,
    -6897377000, -6953862000, -7010568000, -7067495000, -7124643000, -7182011000, -7239600000,
    -7297408000, -7355437000, -7413686000, -7472154000, -7530842000, -7589750000, -7648877000,
    -7708224000, -7767791000, -7827576000, -7887581000, -7947806000, -8008250000, -8068913000,
    -8129796000, -8190898000, -8252219000, -8313760000, -8375521000, -8437501000, -8499702000,
    -8562122000, -8624762000, -8687623000, -8750704000, -8814006000, -8877529000, -8941273000,
    -9005239000, -9069426000, -9133835000, -9198466000, -9263320000, -9328397000, -9393697000,
    -9459220000, -9524968000, -9590941000, -9657138000, -9723561000, -9790210000, -9857085000,
    -9924187000, -9991516000, -10059074000, -10126860000, -10194876000, -10263121000,
    -10331597000, -10400304000, -10469243000, -10538415000, -10607820000, -10677460000,
    -10747334000, -10817444000, -10887791000, -10958375000, -11029197000, -11100259000,
    -11171560000, -11243103000, -11314888000, -11386915000, -11459187000, -11531704000,
    -11604467000, -11677477000, -11750735000, -11824243000, -11898001000, -11972010000,
    -12046273000, -12120789000, -12195561000, -12270589000, -12345874000, -12421419000,
    -12497224000, -12573290000, -12649619000, -12726212000, -12803071000, -12880197000,
    -12957590000, -13035254000, -13113188000, -13191395000, -13269876000, -13348632000,
    -13427665000, -13506977000, -13586567000, -13666440000, -13746594000, -13827033000,
    -13907758000, -13988770000, -14070071000, -14151662000, -14233545000, -14315721000,
    -14398191000, -14480959000, -14564024000, -14647388000, -14731053000, -14815021000,
    -14899292000, -14983869000, -15068753000, -15153945000, -15239447000, -15325260000,
    -15411386000, -15497826000, -15584581000, -15671653000, -15759043000, -15846752000,
    -15934783000, -16023135000, -16111810000, -16200810000, -16290136000, -16379788000,
    -16469768000, -16560077000, -16650716000, -16741686000, -16832987000, -16924621000,
    -17016589000, -17108890000, -17201527000, -17294499000, -17387807000, -17481451000,
    -17575433000, -17669752000, -17764408000, -17859403000, -17954735000, -18050405000,
    -18146414000, -18242760000, -18339443000, -18436464000, -18533822000, -18631516000,
    -18729546000, -18827910000, -18926609000, -19025640000, -19125003000, -19224697000,
    -19324720000, -19425071000, -19525748000, -19626749000, -19728072000, -19829715000,
    -19931676000, -20034147770, -20136754530, -20239672910, -20342900070, -20446432980,
    -20550268420, -20654402990, -20758833090, -20863554930, -20968564500, -21073857600,
    -21179429790, -21285276430, -21391392640, -21497773310, -21604413100, -21711306420,
    -21818447420, -21925830000, -22033447800, -22141294190, -22249362250, -22357644790,
    -22466134340, -22574823100, -22683703000, -22792765640, -22902002310, -23011403960,
    -23120961250, -23230664440, -23340503480, -23450467950, -23560547090, -23670729740,
    -23781004360, -23891359050, -24001781490, -24112258960, -24222778320, -24333326030,
    -24443888100, -24554450100, -24664997160, -24775513940, -24885984650, -24996393000,
    -25106722230, -25216955070, -25327073760, -25437060010, -25546895000, -25656559380,
    -25766033260, -25875296160, -25984327070, -26093104370, -26201605870, -26309808750,
    -26417689600, -26525224370, -26632388380, -26739156290, -26845502120, -26951399190,
    -27056820140, -27161736930, -27266120780, -27369942220, -27473171000, -27575776150,
    -27677725920, -27778987800, -27879528480, -27979313830, -28078308920, -28176477980,
    -28273784380, -28370190660, -28465658440]

/-- Column `S` of focal_surface_lookup.csv, times 10^9. -/
def S : List Int :=
  [0, 1000000000, 2000000000, 3000000000, 4000000000, 5000001000, 6000001000, 7000002000,
    8000003000, 9000005000, 10000007000, 11000009000, 12000012000, 13000015000, 14000018000,
    15000023000, 16000028000, 17000033000, 18000039000, 19000046000, 20000054000, 21000062000,
    22000072000, 23000082000, 24000093000, 25000106000, 26000119000, 27000133000, 28000148000,
    29000165000, 30000183000, 31000202000, 32000222000, 33000244000, 34000266000, 35000291000,
    36000317000, 37000344000, 38000373000, 39000403000, 40000435000, 41000469000, 42000504000,
    43000542000, 44000581000, 45000621000, 46000664000, 47000709000, 48000756000, 49000804000,
    50000855000, 51000908000, 52000963000, 53001021000, 54001080000, 55001142000, 56001207000,
    57001273000, 58001343000, 59001414000, 60001489000, 61001565000, 62001645000, 63001727000,
    64001812000, 65001900000, 66001991000, 67002084000, 68002181000, 69002280000, 70002383000,
    71002489000, 72002598000, 73002710000, 74002825000, 75002944000, 76003066000, 77003192000,
    78003321000, 79003454000, 80003590000, 81003730000, 82003873000, 83004021000, 84004172000,
    85004327000, 86004486000, 87004649000, 88004815000, 89004987000, 90005162000, 91005341000,
    92005525000, 93005713000, 94005905000, 95006102000, 96006303000, 97006509000, 98006720000,
    99006935000, 100007155000, 101007379000, 102007609000, 103007843000, 104008083000,
    105008327000, 106008577000, 107008831000, 108009091000, 109009356000, 110009627000,
    111009903000, 112010184000, 113010471000, 114010763000, 115011061000, 116011365000,
    117011674000, 118011990000, 119012311000, 120012638000, 121012971000, 122013310000,
    123013656000, 124014007000, 125014365000, 126014729000, 127015100000, 128015476000,
    129015860000, 130016250000, 131016646000, 132017050000, 133017460000, 134017876000,
    135018300000, 136018731000, 137019168000, 138019613000, 139020065000, 140020524000,
    141020990000, 142021464000, 143021944000, 144022433000, 145022929000, 146023432000,
    147023943000, 148024462000, 149024988000, 150025522000, 151026064000, 152026614000,
    153027172000, 154027738000, 155028312000, 156028894000, 157029485000, 158030083000,
    159030690000, 160031306000, 161031930000, 162032562000, 163033203000, 164033853000,
    165034511000, 166035178000, 167035854000, 168036538000, 169037232000, 170037934000,
    171038646000, 172039366000, 173040096000, 174040835000, 175041583000, 176042340000,
    177043107000, 178043883000, 179044669000, 180045464000, 181046269000, 182047083000,
    183047907000, 184048740000, 185049584000, 186050437000, 187051300000, 188052173000,
    189053056000, 190053948000, 191054851000, 192055764000, 193056688000, 194057621000,
    195058564000, 196059518000, 197060483000, 198061457000, 199062442000, 200063438000,
    201064444000, 202065460000, 203066487000, 204067525000, 205068574000, 206069633000,
    207070703000, 208071784000, 209072875000, 210073978000, 211075091000, 212076216000,
    213077351000, 214078498000, 215079655000, 216080824000, 217082004000, 218083195000,
    219084397000, 220085611000, 221086836000, 222088072000, 223089320000, 224090579000,
    225091850000, 226093132000, 227094426000, 228095731000, 229097048000, 230098377000,
    231099717000, 232101069000, 233102432000, 234103808000, 235105195000, 236106595000,
    237108006000, 238109429000, 239110864000, 240112311000, 241113770000, 242115241000,
    243116725000, 244118220000, 245119728000, 246121248000, 247122780000, 248124324000,
    249125881000, 250127450000, 251129032000, 252130626000, 253132232000, 254133851000,
    255135483000, 256137127000, 257138784000, 258140453000, 259142136000, 260143831000,
    261145538000, 262147259000, 263148993000, 264150739000, 265152499000, 266154271000,
    267156057000, 268157855000, 269159667000, 270161492000, 271163331000, 272165182000,
    273167047000, 274168926000, 275170818000, 276172723000, 277174642000, 278176574000,
    279178521000, 280180481000, 281182454000, 282184442000, 283186444000, 284188459000,
    285190489000, 286192533000, 287194590000, 288196663000, 289198749000, 290200850000,
    291202965000, 292205095000, 293207239000, 294209398000, 295211572000, 296213761000,
    297215964000, 298218183000, 299220416000, 300222665000, 301224929000, 302227209000,
    303229504000, 304231814000, 305234140000, 306236482000, 307238839000, 308241213000,
    309243602000, 310246008000, 311248430000, 312250868000, 313253323000, 314255794000,
    315258282000, 316260787000, 317263309000, 318265847000, 319268403000, 320270976000,
    321273567000, 322276175000, 323278801000, 324281445000, 325284107000, 326286786000,
    327289484000, 328292201000, 329294936000, 330297689000, 331300462000, 332303253000,
    333306064000, 334308894000, 335311744000, 336314613000, 337317501000, 338320410000,
    339323339000, 340326289000, 341329258000, 342332249000, 343335260000, 344338292000,
    345341346000, 346344421000, 347347517000, 348350635000, 349353776000, 350356938000,
    351360123000, 352363330000, 353366560000, 354369813000, 355373089000, 356376389000,
    357379712000, 358383058000, 359386429000, 360389824000, 361393243000, 362396687000,
    363400156000, 364403650000, 365407169000, 366410714000, 367414284000, 368417880000,
    369421502000, 370425151000, 371428826000, 372432528000, 373436257000, 374440013000,
    375443797000, 376447608000, 377451447000, 378455314000, 379459210000, 380463134000,
    381467087000, 382471068000, 383475079000, 384479119000, 385483189000, 386487288000,
    387491417000, 388495576000, 389499766000, 390503986000, 391508237000, 392512519000,
    393516831000, 394521175000, 395525550000, 396529957000, 397534395000, 398538865000,
    399543366000, 400547900000, 401552466000, 402557065000, 403561695000, 404566358000,
    405571054000, 406575782000, 407580542000, 408585336000, 409590162000, 410595021000,
    411599913000, 412604837000, 413609794000, 414614784000, 415619807000, 416624862000,
    417629949000, 418635069000, 419640222000, 420645406000, 421650695800, 422655959100,
    423661255700, 424666585400, 425671948100, 426677343700, 427682772100, 428688233000,
    429693726500, 430699252100, 431704809800, 432710399300, 433716020300, 434721672700,
    435727356000, 436733070000, 437738814400, 438744588700, 439750392700, 440756225900,
    441762087900, 442767978200, 443773896300, 444779841800, 445785814200, 446791812700,
    447797837000, 448803886200, 449809959800, 450816057200, 451822177500, 452828320100,
    453834484000, 454840668700, 455846873100, 456853096400, 457859337600, 458865595900,
    459871870100, 460878159200, 461884462300, 462890778000, 463897105300, 464903442900,
    465909789500, 466916143900, 467922504800, 468928870600, 469935239900, 470941611300,
    471947983100, 472954353800, 473960721700, 474967085100, 475973442100, 476979791000,
    477986129900, 478992456800, 479998769700, 481005066500, 482011345000, 483017603100,
    484023838500, 485030048800, 486036231600, 487042384400, 488048504700, 489054589800,
    490060637000, 491066643600, 492072606600, 493078523200, 494084390200, 495090204600,
    496095963200, 497101662600, 498107299600, 499112870600, 500118372200, 501123800500]

/-- Column `N` of focal_surface_lookup.csv, times 10^9. -/
def N : List Int :=
  [1722000, 10606000, 19486000, 28362000, 37235000, 46104000, 54970000, 63833000, 72694000,
    81551000, 90407000, 99260000, 108111000, 116960000, 125807000, 134653000, 143497000,
    152340000, 161182000, 170024000, 178864000, 187704000, 196543000, 205383000, 214222000,
    223061000, 231900000, 240740000, 249580000, 258421000, 267262000, 276104000, 284948000,
    293792000, 302638000, 311484000, 320333000, 329182000, 338034000, 346887000, 355742000,
    364598000, 373458000, 382319000, 391184000, 400052000, 408924000, 417799000, 426678000,
    435562000, 444450000, 453343000, 462241000, 471145000, 480054000, 488969000, 497890000,
    506817000, 515750000, 524690000, 533638000, 542592000, 551553000, 560522000, 569498000,
    578482000, 587474000, 596474000, 605482000, 614498000, 623523000, 632556000, 641598000,
    650648000, 659707000, 668776000, 677853000, 686939000, 696034000, 705139000, 714253000,
    723376000, 732509000, 741653000, 750806000, 759971000, 769145000, 778331000, 787528000,
    796737000, 805956000, 815188000, 824431000, 833686000, 842953000, 852233000, 861525000,
    870829000, 880146000, 889476000, 898818000, 908173000, 917542000, 926923000, 936318000,
    945725000, 955146000, 964580000, 974027000, 983488000, 992962000, 1002449000, 1011950000,
    1021464000, 1030991000, 1040532000, 1050086000, 1059653000, 1069234000, 1078828000,
    1088435000, 1098057000, 1107693000, 1117343000, 1127009000, 1136690000, 1146386000,
    1156098000, 1165826000, 1175570000, 1185331000, 1195109000, 1204903000, 1214715000,
    1224545000, 1234392000, 1244257000, 1254140000, 1264042000, 1273963000, 1283902000,
    1293860000, 1303838000, 1313835000, 1323851000, 1333887000, 1343944000, 1354020000,
    1364117000, 1374235000, 1384373000, 1394532000, 1404712000, 1414913000, 1425136000,
    1435380000, 1445646000, 1455934000, 1466244000, 1476576000, 1486931000, 1497309000,
    1507710000, 1518134000, 1528582000, 1539054000, 1549550000, 1560071000, 1570616000,
    1581187000, 1591782000, 1602404000, 1613051000, 1623724000, 1634424000, 1645150000,
    1655903000, 1666684000, 1677492000, 1688328000, 1699192000, 1710085000, 1721007000,
    1731957000, 1742937000, 1753947000, 1764987000, 1776057000, 1787158000, 1798291000,
    1809454000, 1820650000, 1831877000, 1843138000, 1854431000, 1865757000, 1877117000,
    1888512000, 1899940000, 1911404000, 1922902000, 1934435000, 1946003000, 1957607000,
    1969246000, 1980921000, 1992631000, 2004378000, 2016161000, 2027981000, 2039838000,
    2051732000, 2063663000, 2075633000, 2087640000, 2099686000, 2111770000, 2123893000,
    2136056000, 2148259000, 2160501000, 2172785000, 2185109000, 2197475000, 2209882000,
    2222332000, 2234824000, 2247360000, 2259939000, 2272563000, 2285231000, 2297945000,
    2310705000, 2323511000, 2336363000, 2349264000, 2362213000, 2375210000, 2388257000,
    2401354000, 2414501000, 2427698000, 2440945000, 2454244000, 2467593000, 2480994000,
    2494446000, 2507950000, 2521507000, 2535116000, 2548779000, 2562495000, 2576266000,
    2590090000, 2603970000, 2617905000, 2631896000, 2645943000, 2660048000, 2674210000,
    2688430000, 2702709000, 2717047000, 2731445000, 2745904000, 2760424000, 2775005000,
    2789650000, 2804358000, 2819130000, 2833967000, 2848869000, 2863838000, 2878874000,
    2893978000, 2909151000, 2924394000, 2939707000, 2955092000, 2970549000, 2986079000,
    3001683000, 3017360000, 3033111000, 3048937000, 3064838000, 3080815000, 3096868000,
    3112998000, 3129205000, 3145491000, 3161854000, 3178297000, 3194820000, 3211422000,
    3228106000, 3244872000, 3261719000, 3278650000, 3295664000, 3312762000, 3329945000,
    3347214000, 3364570000, 3382012000, 3399542000, 3417160000, 3434867000, 3452665000,
    3470553000, 3488532000, 3506603000, 3524767000, 3543025000, 3561377000, 3579823000,
    3598366000, 3617005000, 3635741000, 3654575000, 3673507000, 3692539000, 3711672000,
    3730908000, 3750248000, 3769693000, 3789246000, 3808908000, 3828680000, 3848565000,
    3868562000, 3888675000, 3908904000, 3929251000, 3949717000, 3970304000, 3991013000,
    4011845000, 4032802000, 4053885000, 4075095000, 4096434000, 4117903000, 4139502000,
    4161234000, 4183098000, 4205097000, 4227231000, 4249502000, 4271909000, 4294455000,
    4317139000, 4339963000, 4362928000, 4386033000, 4409281000, 4432670000, 4456203000,
    4479879000, 4503698000, 4527662000, 4551770000, 4576023000, 4600420000, 4624964000,
    4649659000, 4674507000, 4699511000, 4724676000, 4750003000, 4775495000, 4801157000,
    4826989000, 4852995000, 4879178000, 4905540000, 4932082000, 4958809000, 4985720000,
    5012820000, 5040109000, 5067589000, 5095262000, 5123130000, 5151193000, 5179454000,
    5207913000, 5236572000, 5265431000, 5294491000, 5323752000, 5353216000, 5382882000,
    5412751000, 5442822000, 5473096000, 5503571000, 5534248000, 5565126000, 5596204000,
    5627481000, 5658956000, 5690627000, 5722492000, 5754551000, 5786800000, 5819238000,
    5851863000, 5884671000, 5917660000, 5950827000, 5984168000, 6017680000, 6051360000,
    6085202000, 6119204000, 6153360000, 6187666000, 6222116000, 6256706000, 6291430000,
    6333693156, 6369793329, 6406122788, 6442681789, 6479470521, 6516489103, 6553737579,
    6591215918, 6628924009, 6666861660, 6705028595, 6743424450, 6782048772, 6820901015,
    6859980536, 6899286593, 6938818342, 6978574834, 7018555011, 7058757702, 7099181620,
    7139825362, 7180687399, 7221766077, 7263059613, 7304566089, 7346283450, 7388209499,
    7430341895, 7472678145, 7515215605, 7557951471, 7600882778, 7644006393, 7687319015,
    7730817163, 7774497180, 7818355221, 7862387252, 7906589045, 7950956172, 7995484000,
    8040167687, 8085002174, 8129982184, 8175102211, 8220356522, 8265739142, 8311243857,
    8356864201, 8402593458, 8448424647, 8494350523, 8540363567, 8586455981, 8632619681,
    8678846292, 8725127140, 8771453242, 8817815309, 8864203726, 8910608555, 8957019524,
    9003426020, 9049817080, 9096181387, 9142507258, 9188782640, 9234995102, 9281131821,
    9327179584, 9373124769, 9418953345, 9464650859, 9510202428, 9555592731, 9600806000,
    9645826011, 9690636073, 9735219020]

end Verif.Model.RsznTable
