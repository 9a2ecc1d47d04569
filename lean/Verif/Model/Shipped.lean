import Verif.Model.Raytracefit

/-!
# The transformations shipped with the code

`data/init-fvc2fp.json`, the start of the fits of the camera (io.py lines 61-62, `fvc2fp_filename`), and the tables
`data/raytrace-tan2fp.json` (raytracefit.py lines 267-272, `get_raytracefit`) and `data/raytrace-tan2fp-6560A.json`. Coefficients are in
units of 1e-40, so that they are exactly the decimal numbers of the files. In the tables scale is 1, rotation and offsets are 0 in every row.
The cubic interpolation between the rows is a parameter, see `RayTraceFit`.
-/

namespace Verif.Model.Shipped
open Verif.Model.ZhaoBurge Verif.Model.Fvc2fp Verif.Model.Raytracefit

/-- A decimal number of a file. -/
noncomputable def dec (n : ℤ) : ℝ := n / 10 ^ 40

/-- `zbcoeffs` of init-fvc2fp.json. -/
def initCoeffs : List ℤ := [-3465378053119305000000000000000000000, -5882077958464014000000000000000000000, -51671703371198390000000000000000000000, 367513189002492740000000000000000000, 134308095867736820000000000000000000, 459541090110765500000000000000000000, -1258919546187244500000000000000000000, 76072477364364650000000000000000000000, 703043658488795800000000000000000000, -47410167549159010000000000000000000, 1115163816364794500000000000000000000, 326702766392749200000000000000000000, -68549873669443135000000000000000000]

/-- init-fvc2fp.json. -/
noncomputable def initFvc2fp : FVC2FP where
  xfvcScale := -3000
  yfvcScale := 3000
  xfvcOffset := 3000
  yfvcOffset := 3000
  scale := 1.0360859195871759
  rotation := -0.0058668572341911375
  offsetX := -0.007425372883534545
  offsetY := -0.020898283420238962
  zbpolids := [0, 1, 2, 3, 4, 5, 6, 9, 20, 27, 28, 29, 30]
  zbcoeffs := initCoeffs.map dec

/-- `zbpolids` of both tables. -/
def rayIds : List ℕ := [0, 1, 2, 3, 4, 5, 6, 9, 14, 15, 20, 27, 28, 29, 30]

/-- A row of a table: ADC angles and `zbcoeffs`. -/
abbrev RayRow := ℤ × ℤ × List ℤ

/-- raytrace-tan2fp.json -/
def rayTable : List RayRow := [
  (0, 0, [210903796858415900000000000000000000, -20077893856447440000000, -571952997587552650000000000000000000000, -47566360250735800000000, 287778576366733500000000000000000, 30320011232089070000000, 49972708256286950000000000000000000, 61577616844233594000000000000000000000, -1539273371045758000000000000000000, -38269008156831660000000, 451287490167572100000000000000000000, -7695974798613900000000, -13745867990136809000000000000000000, -22802202063380570000000, -2565299261018895000000]),
  (-10, 10, [207726099124829400000000000000000000, -21587561246035865000000000000000000000, -571950815554974900000000000000000000000, -10744592253155291000000000000000000, -1182619245766373500000000000000000, -549959191016834600000000000000000000, 49217130244510735000000000000000000, 61577642740149320000000000000000000000, -1515678744966919300000000000000000, -6157258749730030000000000000000000, 451273325176620400000000000000000000, 4331007996711871000000000000000000, -13537224174205798000000000000000000, 176642695015346500000000000000000000, 251870638131822280000000000000000]),
  (-20, 20, [198282481143978870000000000000000000, -42519183001829810000000000000000000000, -571944532691308560000000000000000000000, -20193024710495850000000000000000000, -5416452224624375000000000000000000, -1083205138978038700000000000000000000, 46972393239673730000000000000000000, 61577717295936860000000000000000000000, -1445655367993422500000000000000000, -12126419550100910000000000000000000, 451232540429067500000000000000000000, 8139610417403723000000000000000000, -12917591981334213000000000000000000, 347916827090935000000000000000000000, 473381394841929000000000000000000]),
  (-30, 30, [182840546352538470000000000000000000, -62158859479943054000000000000000000000, -571934906926065400000000000000000000000, -27205475691218958000000000000000000, -11903034319599563000000000000000000, -1583533229845448000000000000000000000, 43304077503316190000000000000000000, 61577831497345120000000000000000000000, -1331449925024292600000000000000000, -17725369334822184000000000000000000, 451170059321465330000000000000000000, 10966429113809117000000000000000000, -11905688755362864000000000000000000, 508617322242922800000000000000000000, 637835783310583700000000000000000]),
  (-40, 40, [161843076527813700000000000000000000, -79909845735468350000000000000000000000, -571923099409061000000000000000000000000, -30935944894675085000000000000000000, -19859958141477187000000000000000000, -2035740437504644200000000000000000000, 38320057463744930000000000000000000, 61577971544887035000000000000000000000, -1176695035895221900000000000000000, -22783710722020380000000000000000000, 451093422064721400000000000000000000, 12470530298929128000000000000000000, -10532111158440276000000000000000000, 653861017981423200000000000000000000, 725421203591341100000000000000000]),
  (-50, 50, [135901655515800400000000000000000000, -95232790347388810000000000000000000000, -571910534393052640000000000000000000000, -30934300195858716000000000000000000, -28327473958164246000000000000000000, -2426087476326739300000000000000000000, 32168184936871110000000000000000000, 61578120529414460000000000000000000000, -986255214137033500000000000000000, -27148011871503814000000000000000000, 451011873365542200000000000000000000, 12470542392495698000000000000000000, -8838446270837720000000000000000000, 779235133506960500000000000000000000, 725597547378569700000000000000000]),
  (-60, 60, [105785163843874270000000000000000000, -107662122451070620000000000000000000000, -571898727405053060000000000000000000000, -27200579069192315000000000000000000, -36284255853985813000000000000000000, -2742716047238817000000000000000000000, 25032757439120423000000000000000000, 61578260478909140000000000000000000000, -766035441692287400000000000000000, -30686396790351620000000000000000000, 450935245553101000000000000000000000, 10966516936730306000000000000000000, -6876048510965368000000000000000000, 880931250006615300000000000000000000, 638366029315996200000000000000000]),
  (-70, 70, [72401597470860160000000000000000000, -116820195447735540000000000000000000000, -571889102451372600000000000000000000000, -20184993274615644000000000000000000, -42770589270374830000000000000000000, -2976008557168868000000000000000000000, 17129621455765048000000000000000000, 61578374526237510000000000000000000000, -522769875810052800000000000000000, -33292356161620020000000000000000000, 450872772761370800000000000000000000, 8139902749781038000000000000000000, -4704508580717042700000000000000000, 955860756806252100000000000000000000, 474266089517584060000000000000000]),
  (-80, 80, [36772375029359676000000000000000000, -122428758291237770000000000000000000000, -571882820304217800000000000000000000000, -10733633944026560000000000000000000, -47004121665510450000000000000000000, -3118879539767650500000000000000000000, 8699871148349393000000000000000000, 61578448936414170000000000000000000000, -263805654210939560000000000000000, -34887715652518530000000000000000000, 450831979212680300000000000000000000, 4331645461780276000000000000000000, -2389853059393387000000000000000000, 1001748328170208000000000000000000000, 253101889821100920000000000000000]),
  (-90, 90, [-593732838680716300000000000000, -124317406690923530000000000000000000000, -571880638560917500000000000000000000000, 13575930205596076000000000000000, -48474217742536950000000000000000000, -3166990138379989000000000000000000000, 2265188114498531800000000000000, 61578474752242590000000000000000000000, 3108535174617849000000000000000, -35424743192575383000000000000000000, 450817774773188240000000000000000000, 1060869109303759100000000000000, -2526596043921150000000000000000, 1017200689489278700000000000000000000, 1552889167006209800000000000000]),
  (-100, 100, [-36773569505001755000000000000000000, -122428758333366070000000000000000000000, -571882820324138600000000000000000000000, 10760373631748706000000000000000000, -47003542665759560000000000000000000, -3118879350022303000000000000000000000, -8695338771023466000000000000000000, 61578448865034740000000000000000000000, 270025856799608540000000000000000, -34887402625569054000000000000000000, 450831865507849940000000000000000000, -4329555836367810000000000000000000, 2384778903421296000000000000000000, 1001748682313835200000000000000000000, -250043090524447950000000000000000]),
  (-110, 110, [-72402812131269765000000000000000000, -116820195526911240000000000000000000000, -571889102490518500000000000000000000000, 20210508880866012000000000000000000, -42769449000051590000000000000000000, -2976008200564132600000000000000000000, -17125083317299120000000000000000000, 61578374385801930000000000000000000000, 528999095821127630000000000000000, -33291767863167608000000000000000000, 450872549062602000000000000000000000, -8137908519289005000000000000000000, 4699374061945476000000000000000000, 955861422379318200000000000000000000, -471346854770321000000000000000000]),
  (-120, 120, [-105786409429413300000000000000000000, -107662122557744230000000000000000000000, -571898727462079500000000000000000000000, 27224095640373500000000000000000000, -36282589199306580000000000000000000, -2742715566786470000000000000000000000, -25028210476433570000000000000000000, 61578260273950760000000000000000000000, 772278473218101500000000000000000, -30685604177591690000000000000000000, 450934919098941960000000000000000000, -10964678573562409000000000000000000, 6870821512213764000000000000000000, 880932146732588600000000000000000000, -635674853770840600000000000000000]),
  (-130, 130, [-135902939037526830000000000000000000, -95232790468694710000000000000000000000, -571910534466039900000000000000000000000, 30955103192976767000000000000000000, -28325331832118420000000000000000000, -2426086929976038000000000000000000000, -32163627153768655000000000000000000, 61578120266469140000000000000000000000, 992515181475799700000000000000000, -27147110544932480000000000000000000, 451011454586242450000000000000000000, -12468915754373637000000000000000000, 8833105830583582000000000000000000, 779236153228499200000000000000000000, -723216200934331000000000000000000]),
  (-140, 140, [-161844400421063600000000000000000000, -79909845856774970000000000000000000000, -571923099495631800000000000000000000000, 30953401904216015000000000000000000, -19857405869705690000000000000000000, -2035739891153500600000000000000000000, -38315488170608030000000000000000000, 61577971232210220000000000000000000000, 1182973017790270400000000000000000, -22782809394922094000000000000000000, 451092924126946900000000000000000000, -12469164931545563000000000000000000, 10526649998558560000000000000000000, 653862037705620400000000000000000000, -723422246897381400000000000000000]),
  (-150, 150, [-182841908183380300000000000000000000, -62158859586619250000000000000000000000, -571934907023503300000000000000000000000, 27219055727581330000000000000000000, -11900149588352130000000000000000000, -1583532749392001200000000000000000000, -43299497398809320000000000000000000, 61577831144592260000000000000000000000, 1337744827614250000000000000000000, -17724576720539043000000000000000000, 451169497610640500000000000000000000, -10965366713180265000000000000000000, 11900114158341850000000000000000000, 508618218975379100000000000000000000, -636280308204812100000000000000000]),
  (-160, 160, [-198283873902446830000000000000000000, -42519183081008100000000000000000000000, -571944532796650700000000000000000000000, 20202314500763110000000000000000000, -5413322686319508000000000000000000, -1083204782372251500000000000000000000, -46967804324875250000000000000000000, 61577716913825440000000000000000000000, 1451964058993106400000000000000000, -12125831249972498000000000000000000, 451231932012418800000000000000000000, -8138883506666410000000000000000000, 12911924911086508000000000000000000, 347917492671496500000000000000000000, -472317073311369340000000000000000]),
  (-170, 170, [-207727512070124180000000000000000000, -21587561288165954000000000000000000000, -571950815665110900000000000000000000000, 10749308968376878000000000000000000, -1179339851028422500000000000000000, -549959001270882500000000000000000000, -49212535580947380000000000000000000, 61577642340136340000000000000000000000, 1521996433107935200000000000000000, -6156945721573306000000000000000000, 451272688284800300000000000000000000, -4330638872862724000000000000000000, 13531496747175900000000000000000000, 176643049163782200000000000000000000, -251330163900487750000000000000000]),
  (-180, 180, [-210905216814451330000000000000000000, -74976541392043280000000, -571952997699292360000000000000000000000, -17882220576541420000000, 291108421803915130000000000000000, 29479152691832578000000, -49968111596284840000000000000000000, 61577616438205540000000000000000000000, 1545594183319069800000000000000000, -21072522158789770000000, 451286843709907000000000000000000000, 2046103024065864700000, 13740119601500873000000000000000000, 21132142991823640000000, -19623295441567130000000])]

/-- raytrace-tan2fp-6560A.json -/
def rayTable6560 : List RayRow := [
  (0, 0, [212150061135490300000000000000000000, -10725394192231725000000, -572118453229121460000000000000000000000, -17551260625934740000000, 288699333128604600000000000000000, 26469458833229624000000, 49251517178406380000000000000000000, 61464770463784590000000000000000000000, -1471560128823662800000000000000000, 8941365904581935000000, 527208805881057200000000000000000000, 8684897827159324000000, -13381671128497761000000000000000000, -20268784007381747000000, 19029256368914465000000]),
  (-10, 10, [208952888973694860000000000000000000, -21344848345455393000000000000000000000, -572116292863715800000000000000000000000, -10544778258711284000000000000000000, -1159981637466367000000000000000000, -544835103064782500000000000000000000, 48506828944470320000000000000000000, 61464805002167600000000000000000000000, -1449002485081774200000000000000000, -7434974215485273000000000000000000, 527197966385601940000000000000000000, 4217120931597331000000000000000000, -13178554215467569000000000000000000, 173122117412434600000000000000000000, 243967577315411880000000000000000]),
  (-20, 20, [199451585527661680000000000000000000, -42041132534392720000000000000000000000, -572110072384196260000000000000000000000, -19817503152565935000000000000000000, -5331285719196473000000000000000000, -1073113136248859900000000000000000000, 46294447072654290000000000000000000, 61464904444569900000000000000000000000, -1382060089616578800000000000000000, -14643240865150261000000000000000000, 527166757477940940000000000000000000, 7925576053788876000000000000000000, -12575335597712720000000000000000000, 340982662753704200000000000000000000, 458531695728740200000000000000000]),
  (-30, 30, [183915906130308740000000000000000000, -61459997849880080000000000000000000000, -572100542185566400000000000000000000000, -26699551512774837000000000000000000, -11722074565269889000000000000000000, -1568780784792058800000000000000000000, 42679014296598230000000000000000000, 61465056779160870000000000000000000000, -1272890228993415400000000000000000, -21405193311785647000000000000000000, 527118948736188800000000000000000000, 10678069029056085000000000000000000, -11590236065257696000000000000000000, 498480296693368500000000000000000000, 617836705123532200000000000000000]),
  (-40, 40, [162792026202408280000000000000000000, -79011408750033570000000000000000000000, -572088851879445640000000000000000000000, -30360656531069047000000000000000000, -19561501504235514000000000000000000, -2016776756588352400000000000000000000, 37766860454457820000000000000000000, 61465243611712060000000000000000000000, -1124978277410984100000000000000000, -27515154070260530000000000000000000, 527060312006334460000000000000000000, 12142632263240348000000000000000000, -10253040765880130000000000000000000, 640829179344920900000000000000000000, 702693678876283600000000000000000]),
  (-50, 50, [136695915781744520000000000000000000, -94162077642621840000000000000000000000, -572076411573745800000000000000000000000, -30359056740533047000000000000000000, -27903993106825144000000000000000000, -2403489593680146500000000000000000000, 31703715960085644000000000000000000, 61465442393186225000000000000000000000, -942986583955226100000000000000000, -32787681314729550000000000000000000, 526997921766145500000000000000000000, 12142663369472960000000000000000000, -8604234118153691000000000000000000, 763704481944401400000000000000000000, 702893738691262400000000000000000]),
  (-60, 60, [106401554781904550000000000000000000, -106451667715984510000000000000000000000, -572064721753555800000000000000000000000, -26694787806734866000000000000000000, -35743303501873014000000000000000000, -2717171068748437600000000000000000000, 24671227906287640000000000000000000, 61465629145358094000000000000000000000, -732567638637639300000000000000000, -37063147068241294000000000000000000, 526939299613198160000000000000000000, 10678211357205509000000000000000000, -6693809412063576000000000000000000, 863373696219267700000000000000000000, 618436974297100100000000000000000]),
  (-70, 70, [72822489863211305000000000000000000, -115506777737022990000000000000000000000, -572055192300471100000000000000000000000, -19809687480832365000000000000000000, -42133883025761005000000000000000000, -2948292654259426500000000000000000000, 16882131680432403000000000000000000, 61465781353007130000000000000000000000, -500159313984098300000000000000000, -40212433048708965000000000000000000, 526891507156231200000000000000000000, 7925951775809208000000000000000000, -4579778540959266700000000000000000, 936809777962342500000000000000000000, 459529566483674050000000000000000]),
  (-80, 80, [36985933871262294000000000000000000, -121052284512215040000000000000000000000, -572048972479327550000000000000000000000, -10534110746087449000000000000000000, -46304922356228580000000000000000000, -3089834365723125000000000000000000000, 8574039754194838000000000000000000, 61465880673840190000000000000000000000, -252777255297454740000000000000000, -42140643049172270000000000000000000, 526860296729360100000000000000000000, 4217862500529981000000000000000000, -2326419405006396400000000000000000, 981782758509125500000000000000000000, 245350542974845570000000000000000]),
  (-90, 90, [-302651389904808700000000000000, -122919699219851430000000000000000000000, -572046812380060940000000000000000000000, 13219729530706924000000000000000, -47753318473312350000000000000000000, -3137497383849645500000000000000000000, 1968780130656220000000000000000, 61465915142026924000000000000000000000, 2186058430019611000000000000000, -42789775429938370000000000000000000, 526849421274325300000000000000000000, 1178834607050412300000000000000, -2311529881794842800000000000000, 996927138104987100000000000000000000, 1737745528360984200000000000000]),
  (-100, 100, [-36986545405070035000000000000000000, -121052284553936040000000000000000000000, -572048972498687200000000000000000000000, 10560148791997306000000000000000000, -46304352017681380000000000000000000, -3089834176349820000000000000000000000, -8570100048087680000000000000000000, 61465880603713855000000000000000000000, 257152747421402650000000000000000, -42140330637548070000000000000000000, 526860184965204800000000000000000000, -4215540550712071500000000000000000, 2321777402696714500000000000000000, 981783110907858600000000000000000000, -241927685933464800000000000000000]),
  (-110, 110, [-72823119338602050000000000000000000, -115506777815433500000000000000000000000, -572055192338512000000000000000000000000, 19834533414106140000000000000000000, -42132759814460290000000000000000000, -2948292298354014000000000000000000000, -16878185796332324000000000000000000, 61465781215039070000000000000000000000, 504544522908783000000000000000000, -40211845906866480000000000000000000, 526891287279864040000000000000000000, -7923735925295395000000000000000000, 4575081995656045000000000000000000, 936810440256287900000000000000000000, -456263056941666440000000000000000]),
  (-120, 120, [-106402211746426550000000000000000000, -106451667821627400000000000000000000000, -572064721808967640000000000000000000000, 26717686957980643000000000000000000, -35741661782232610000000000000000000, -2717170589238348000000000000000000000, -24667272559699996000000000000000000, 61465628944007120000000000000000000000, 736967729931150500000000000000000, -37062356014057674000000000000000000, 526938978746303500000000000000000000, -10676168834638063000000000000000000, 6689029302103410000000000000000000, 863374588527080100000000000000000000, -615425896834769100000000000000000]),
  (-130, 130, [-136696606468317870000000000000000000, -94162077762755310000000000000000000000, -572076411644656800000000000000000000000, 30379313330906882000000000000000000, -27901883033532830000000000000000000, -2403489048401306000000000000000000000, -31699749010543702000000000000000000, 61465442134876830000000000000000000000, 947404923872874700000000000000000, -32786781761063920000000000000000000, 526997510168884600000000000000000000, -12140856235670168000000000000000000, 8599351500721673000000000000000000, 763705496641718500000000000000000000, -700229583235113700000000000000000]),
  (-140, 140, [-162792752777253150000000000000000000, -79011408870167680000000000000000000000, -572088851963545000000000000000000000000, 30377654812649896000000000000000000, -19558987426374673000000000000000000, -2016776211309507000000000000000000000, -37762881162818437000000000000000000, 61465243304560170000000000000000000000, 1129416028000022600000000000000000, -27514254516564325000000000000000000, 527059822626644260000000000000000000, -12141115525912514000000000000000000, 10248049062163842000000000000000000, 640830194044719200000000000000000000, -700457560787883800000000000000000]),
  (-150, 150, [-183916666430878700000000000000000000, -61459997955525280000000000000000000000, -572100542280210360000000000000000000000, 26712774548036350000000000000000000, -11719233007585949000000000000000000, -1568780305281791600000000000000000000, -42675023412332050000000000000000000, 61465056432652840000000000000000000000, 1277346211119383200000000000000000, -21404402257453394000000000000000000, 527118396698485000000000000000000000, -10676888944896245000000000000000000, 11585141853826377000000000000000000, 498481189007509800000000000000000000, -616096856166627700000000000000000]),
  (-160, 160, [-199452373322938860000000000000000000, -42041132612805785000000000000000000000, -572110072486508900000000000000000000000, 19826548642629176000000000000000000, -5328203021315231000000000000000000, -1073112780343203100000000000000000000, -46290446741571264000000000000000000, 61464904069234510000000000000000000000, 1386530928149163200000000000000000, -14642653723155963000000000000000000, 527166159555905000000000000000000000, -7924768676939160000000000000000000, 12570157821083214000000000000000000, 340983325054829000000000000000000000, -457341313589741740000000000000000]),
  (-170, 170, [-208953694715548750000000000000000000, -21344848387178360000000000000000000000, -572116292970675700000000000000000000000, 10549370907357423000000000000000000, -1156751328697280700000000000000000, -544834913691424400000000000000000000, -48502822449309500000000000000000000, 61464804609254655000000000000000000000, 1453483017484245000000000000000000, -7434661803661631000000000000000000, 527197340491377460000000000000000000, -4216710965313019400000000000000000, 13173321895552304000000000000000000, 173122469815943250000000000000000000, -243363119807143240000000000000000]),
  (-180, 180, [-212150873110311220000000000000000000, -39437321868064800000000, -572118453337641250000000000000000000000, -27056398172129060000000, 291979336268900400000000000000000, 32990012338869514000000, -49247508542753640000000000000000000, 61464770064966435000000000000000000000, 1476044027367716300000000000000000, -16414945855162017000000, 527208170591255300000000000000000000, 16222440036928074000000, 13376419865832613000000000000000000, 21021121162359655000000, 12253061494658138000000])]

/-- The coefficients of a row. -/
noncomputable def RayRow.coeffs (r : RayRow) : Coeffs := ⟨1, 0, 0, 0, r.2.2.map dec⟩

end Verif.Model.Shipped
