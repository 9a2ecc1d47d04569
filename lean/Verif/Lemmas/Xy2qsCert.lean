import Verif.Lemmas.Poly

/-!
Certificates for the radial polynomials: `H = s2r∘r2s - id` and `K = r2s∘s2r - id`
with integer coefficients, and their bounds on 69 cells of width 1/64.
-/

namespace Verif.Lemmas.Xy2qs
open Verif.Lemmas.Poly Verif.Model.Xy2qs

def P : List ℚ := cR2s.reverse
def G : List ℚ := cS2r.reverse
def H : List ℚ := add (comp G P) [0, -1]
def K : List ℚ := add (comp P G) [0, -1]

def HD : Int := 6400000000000000000000000000000000000000000000000000000000000000000000000000000000000000000
def KD : Int := 152587890625000000000000000000000000000000000000000000000000000000000000000000000000000000000000000000000000000

def HI : List Int := [
  64630674030765354705636970676795802709511365945502857751013536556762310713334921521707,
  -1446361015746213393186782727027066862205443686923973279410774255620158560024225158400000,
  11790327086315102250793987150791541769766049782693268178874423596962457230614157132481200,
  -47072521255367176075254937003393500739763468436569079095953325352615351861169502283545600,
  102096173582885662505959688567705145217509421856140792116877377046389305342173636728440000,
  -122864670746592956260890819596271747800965137351307043567639201424203822193723701861776000,
  78279524498408077129708502860653759507005119158179371642349457982244947033202909117584000,
  -24624272043864683908869793976978714055295272770387461171037707280679257004852979188912000,
  9064087279197853576361914980433616103737016123243237376053705391712615265272998576000000,
  -9344845766962406904144141410944775724800794798840016437516171586294905946631463952000000,
  5519438279737130120971631465337494564251051227545857733470333846056468133445025728000000,
  -1265400170724774739931986753356708641453056463133548981401225985868250928527848960000000,
  -776814081873267338128843113779380979470434610111952653434713370798973039172129600000000,
  1054849844409311807203189486685628144289440790497614310053895954639574033712382080000000,
  -731171903653089440624836572019090221324798214902957785533736243571135535400137920000000,
  328599982334629845793984939994478891696716904900040649312904918236761685115392000000000,
  -58730610233212122935341596893692556695477228013143014876735664017400461385984000000000,
  -42034803540898147430506210541000216497878623844549088197242593299514342250496000000000,
  48488607478113877578305526598189421552522192806482040892441508151882211240960000000000,
  -28781742634010879726032122941955174719698335047807599948894800061596350423040000000000,
  11339662268036561597441754769557467324342955522216093259019437782760114595840000000000,
  -2084458242182874869328813780317757699290115457363026148959953780604514723840000000000,
  -934370850871675279506492289623643424414891322187036364099551790693804032000000000000,
  1118180631784048266984903356618082008919172666990125405795273452667369472000000000000,
  -629781908932804480110280213180063876125553962075587479341857734186143744000000000000,
  240563120167599751721140270472985189338388307251785507740003814035783680000000000000,
  -54004968904661549278297912939684906461561311742939953335862461943275520000000000000,
  -5041425236149200607376235927733884417152391410825815502923979901091840000000000000,
  12304978417950670021335377972488653050049870305762155150230068564807680000000000000,
  -7305846001766540884232024716151845690476135050882435215906906669056000000000000000,
  2901608848666770024555694170561136249502582437376585486236879970304000000000000000,
  -807450846240791937890740567987958953797171720474881029472914833408000000000000000,
  110932087970797819597687205520311441444143499302381619291733196800000000000000000,
  34233204566318543433795308893016761214778354382372014898280202240000000000000000,
  -32715591122161361550032038908871464311491772374746322397112238080000000000000000,
  14882693800979755160556612505172247626278147579299890754227601408000000000000000,
  -4983941308063630866830188201488073915847428758668286114988032000000000000000000,
  1319190630543744819385750321565405895128769743531982752042188800000000000000000,
  -275495970737022112407106116961960014849206087189311971026534400000000000000000,
  43840967463934673580940091490089309284168309751760530964480000000000000000000,
  -4988430143856430837183115139019081848932693361489855381504000000000000000000,
  361029961456252098453037832455673832865130638450390204416000000000000000000,
  -12472521901617809417529652709725247422954337209605685248000000000000000000]

def KI : List Int := [
  1540881562694012811397560282452696870022490982525163011425176774671234789546957035950198693490556766184659,
  -34482728469438232888343089899285239721178419059590027272293209212734922263476204496566091360808064532500000,
  281089464448889307902857115510116683093338262941437808065469689782062719219666840886202407943559164940651250,
  -1122204104242747405023991808745000077365094906449946157813825856525929234246663199747344992618015356894172500,
  2433558846183965653449378007098086192464632054003688724838428384943749013749362298320709623423340044108480000,
  -2926276439465197313361404133619897297223072445060175418093507546110741044505238318395618975649613270202542500,
  1857778152054056351369051676699889177949961825082558171194386730793761402586066764162902215228405511781447500,
  -575810119072209418386160794164890885632327028170844621929269905033094468780486101526405683886238669175000000,
  214155407936654481718963886443261145967065299523168532105693870335773118961859274255027447419239184462500000,
  -237053492019578328545718404452561539427915639487336019365009947135056765380121995942307186512030156593750000,
  155856038884255299111928491723720844720461718571536134172937451233622409416538939279509129460433172500000000,
  -59108234788738106300576607463063789994316695403521860017413342854127857070656204422295567155018276662500000,
  14375628704026405819457337633568489073854420498314201078444595974448985365314844040186042113656985756250000,
  -6378824877254464341144418772295333929290780037725005413124522852231121211426937731578335268714218750000000,
  4548079542730740980485235007275903363573926191320969390077325977255214569917308030377810142747226562500000,
  -2121193286439712378072929256276848337004122722351645535951419808058243199134419231120685767679218750000000,
  641169578738275736935202682134793271582475189669472546932093182014160894737689014841458966088750000000000,
  -162413247763742919032044709847836166436497494594615868623991258888841955628214625131107120760859375000000,
  72914024911592294415399064879417636981185607409374931172410500224803944213307962964073490436015625000000,
  -38874749183580123364367221029070892414400707065393219512407836582956103123678103790882111718750000000000,
  14358312968324832052108744396373056722457739585889734498674708682031690321337573510247733203125000000000,
  -3772698399582968363688026347179896696836579596704218305025837589617587080480890520985552734375000000000,
  979769431744371883745276202225148302084047716397728774321381438158178679343770158644817968750000000000,
  -407542032741903157265208449777810422139030877734141053714637963341032179954465038632893750000000000000,
  175144390894228302930796910605447242862580093740165915509242636918893635299700388925561132812500000000,
  -54232297500367287111397097705900858705281603456420722143226544621577562140381194892187500000000000000,
  12775159711619049211781164718018608638459503954488679318261394610688567763093534637451171875000000000,
  -3224419480070799382780966484084554644604400806713777803358460154069178610810210740722656250000000000,
  1197584957563754152377456523927876290333912551085553794877057205299491259397191314453125000000000000,
  -432665298020739597208676995194452297388137598259047996638089583267708852994463413574218750000000000,
  115239853140717893587353917892688037645304264727700065723201527264195458255389499707031250000000000,
  -24074324419397668667496819373705048670343083030855210802358787776951504881776367187500000000000000,
  5491489931642399579715320552032176530272304221593966518229977420506998307227539062500000000000000,
  -1776943869256851411806231043387486144039063546427149650100430254994524098326904296875000000000000,
  551652020017088572389671624364907864072208008895573304679579886116802701209960937500000000000000,
  -126353226432550549441311123352637972747165787215109583195685196081604089376464843750000000000000,
  22060002401303153379137871386490744576370784613338501590677015730490396739990234375000000000000,
  -3951714849680354199899343058968082284586229826032355256347875251258568115234375000000000000000,
  1046812456046094502088948873677461507925768324715488186419656062403313903808593750000000000000,
  -280880656740133111027678172571977235419723900212629199133414683356335449218750000000000000000,
  53557228586864338429621989185557472934090273807426027671027376439855957031250000000000000000,
  -6491402789695454828095980569269577033337100089960949957037966063948364257812500000000000000,
  377545113468112127522493714200372890523427172951979296914795173182983398437500000000000000]

set_option maxRecDepth 10000

theorem H_eq : (HI ++ List.replicate 7 0).map (fun m : Int => (m : ℚ)) = H.map (· * (HD : ℚ)) := by decide +kernel
theorem K_eq : (KI ++ List.replicate 6 0).map (fun m : Int => (m : ℚ)) = K.map (· * (KD : ℚ)) := by decide +kernel

theorem H_bound : checkCells HI 128 (-(HD / 80000)) (HD / 80000) 69 = true := by decide +kernel
theorem K_bound : checkCells KI 128 (-(KD / 80000)) (KD / 80000) 69 = true := by decide +kernel

def PD : List Int := [999773920000000, 4110588380000, -24158636160000, 86354072000000, -127622306000000, 87194824800000, -21086270800000]
def GD : List Int := [1000000090000000, -426342530000, 2098062510000, -22596527240000, 32033584050000, -15650027820000]

theorem PD_eq : (PD ++ List.replicate 1 0).map (fun m : Int => (m : ℚ)) = (deriv P).map (· * 10 ^ 15) := by decide +kernel
theorem GD_eq : (GD ++ List.replicate 1 0).map (fun m : Int => (m : ℚ)) = (deriv G).map (· * 10 ^ 15) := by decide +kernel

theorem PD_bound : checkCells PD 32 (99 * 10 ^ 13) (101 * 10 ^ 13) 18 = true := by decide +kernel
theorem GD_bound : checkCells GD 32 (99 * 10 ^ 13) (101 * 10 ^ 13) 18 = true := by decide +kernel

end Verif.Lemmas.Xy2qs
