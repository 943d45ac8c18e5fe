import Verif.Lemmas.StdPoseidon
import Verif.Spec.Curves
import Mathlib.LinearAlgebra.Matrix.NonsingularInverse

/-
Poseidon on lists of natural numbers, for the evaluation of test vectors by the kernel, and the inverses of the matrices.
-/

namespace Zok.Typed.Std
open Poseidon

/-- Inverses of the matrices over the field of Bn128. -/
def poseidonInv : List (List (List ℕ)) := [
  [[8897705321156975119607866206188469715432233408805434913352778521345836531302, 13897810991298242824030978581179475767377101082166056046492926701399149797630],
   [7127083008168878795310303301757642617203533252990949589494537404444738046722, 10251091711782631878897995303436082826711938358699127319815611151510940403902]],
  [[14581990407185373640425896461718924180109794780799188900903678642755512839974, 18866968878651837536281064213261914109651535895144158735451177080294903852066, 7839627026775837327267018712780335784833794955194428770232963186824469625450],
   [18938579070830856475783700955955783311402730090941909099413093949983854639956, 8613994242085266665256493323589366394657716111166474713216639394202078033993, 5498488707276883206944027953979269171532592088279065622083714982398440150521],
   [655752878747070013666604006434797489161341466456915955415098407670323222025, 4856172836225950379592127603074379105027349156448153533703883389233432728400, 10503264605839191981081969978629584646259107387222177725485772749763096823552]],
  [[11239114693084128058350549425958125915870892581960291781646776687851667760511, 10105904584143632958783842630590907635614410488137638706977141480225053827069, 8104036960966147189101800989775920647625500664553165383841890478993922009615, 13547822514978294959002052115353920741235948502815086056188194139721200024529],
   [17180212420275995557616871030357493081845313999414438317117909921536406425240, 19496189677657170031134895716482846603070791663007046765701745588750816355082, 20717396551825803561945124640512316642676745150324919037843884938555531187946, 7233549595790842876984150095673077175891799131667941095056312107187582589289],
   [63293749764506713865852125670478415142242049702559418529190374291922314342, 20997613103829603118088736833887667029833486054585021560711906801368797395132, 11769043381262369061021694927441780830851691633245557709188905335734193934562, 14794618957752837215478846153093682160082798435133416241093865496020999948315],
   [18435995467914368338030649447291416156023519009803181931225356018791817292716, 11647559130835872936137947916676891100033865740710437890043099087099063384814, 9703722530472974316472023849920669712779958964331855495701344579696333617860, 11305307883196156176954142544556220438612092089945530529670534119088904997747]],
  [[10086760169511223675425333361959321968931852060752724420831335161328473814485, 13434358418338237068937292565148892940670856672349279939002285058994089270620, 21097393584602336191304558835298233144423047179099444520467057057051171382922, 20430559208881813268965365089271404381612235242090936605856292482524571739957, 16451849061281307611085938465171676875084961071306032626746926757280648068816],
   [21215113485616506453971350788002833210626836245615349026264160602116958104253, 1796581247725031696445009637417329885656915838911368338695070430955417929816, 6080312904543019272156961297334682461308726899807442071562943204186144498709, 19109528788209608705271467897379393766969285977022746996098918340018379011481, 21231371063222220681113833015628878701318674153899162526050629849543507217636],
   [17434421898341203580478916201281640853709918265802377638036662154757386543255, 3513923297816956127973529536489107607106609732518143637068774814421194966685, 12540308818138302999805239293700800109447191443898113266740795166267980152494, 19774493313482008048084734716861447776678207417209556062658461446047536823707, 3536017623499066644746865567917854787833418823566726050733742472904960615553],
   [12173619333664760718152613863568008576421098883673388637369989534846938557854, 12073848614907297675113303727783387212515155037562733854700117492597364305672, 9250804389444656343585925831914961490440040141441856832540221691308929621768, 17270842099450287998532020108454812793116778465713421261749670891695409379232, 15656017712429565950696106831207025492205691630057601770553463123973005783004],
   [8307768471872115455502354963417520537492570306662560381031177498617683912389, 7660172124138772924380139006820198782296276496986563361917125513772620910607, 13652741987114479175200799252106686468088399774662796531657231129063032340857, 11588819180396495747152660409435521966257321426509902592576170371340161940884, 13088533006199861026358337045915026347604126466290985197249282593491543661078]],
  [[8952540803512151742398842412991419961588344820167599750345175032327691328990, 18119393347939134541914294139173513074566448009882559970898999777603562885462, 420883137115887632901809661230101232653138625308117246172227520137794063324, 16909244052295392743165846009536109729052701793078387301956020810920268131264, 17022847378791404028340369109807459068976477041757555651945896556746134803678, 5613637561715748438096514405887788394736570541738232496967742088486957774220],
   [12839018329748904458770222964193617792685594122221064523263656551503226518100, 999783030033605597057537914896985743436987160787225132930244825720444290175, 682531979354850210467859269359250333329428573898824483536354152875344683352, 5611535705706961470957234301810371212481928505552014859748406283897151830657, 5642816790537985308171048213390539816044870630119626949954201702732908080940, 10901478429201391829996405588940472314128488044780511492904481729715781945588],
   [2917237292070345551336039595524954041467209514006528888972135940534107827735, 17676724006334603478164282493329816220953344738465343554039176733992964823216, 8686788641181822374600647548587162442881737765459734913789674804648280276553, 7424888623711249077152376006076831027686487327560234733782948333323688941026, 19193123761391203433936294534791317091947276832268011625054509155218360452458, 20783511701353769678098456705752645242126376752680909470900030394169706550529],
   [585508182033198134152931903927589846329795847703832839551763945213803736905, 4750854250410065080433333575974874315503252387210815913989216292403431289076, 19071764387800469006063406649007829074234318506203030340471382558646117839727, 11795047358919604382500194436288836416172109425713895558711050146233386196706, 6744029631508617993302935790693609091480787209900794859070382244132036366714, 7031141782873511555776172560933773452622097002036655889539154980983491534982],
   [19713585765926408978941400177147837780578172529776299301201356615895239518241, 5972228453729891737655595913964318764329398904868467514324340279141258142627, 10772486187303954310467749389103190003133151725728795856904119224878053004559, 17039296506083807299828023406158642439519636133689049645882922161902198894077, 6748158907866979863310063323217257735506081770331217079633829194285294104689, 1658258448335115625346299028889096413368485043830821303895644905731343093628],
   [7826192947583208128735529192690616214160324968866101608782244046431205787810, 17961008693131191666834802258893365239783581518280635232846912746681655047257, 14684410053956012844176637269506015751768771758359975020919796527937589185828, 9155075729073267125335244751429063955192481281253847098525983841458798744445, 11796654187968145221842204012260168852495821815776731797016651441135959184025, 12163816698276734595517027742345830395879367748954686773403343723325155507439]],
  [[20010051607411361486613684790470367507488299100896282223380219758085720982715, 17170747639419893759383054005019720970495733976895644367640367725210651234817, 8548130406250880105713252784960479974486297416987439832493176413081691090027, 8700082191370696555017502972378797095347564439538915928986815782493034906878, 12323122546602161107061964001409513027856643609195531499236209733159320870416, 18442571672757249006848291159310682709034536831103070511001482196194712093289, 814637314533241568100018741485951137540172090661030519450929368193101109287],
   [7163827055389142893635901551893565945513864339182314379285784336159053025087, 8827896303827923410350695041351401351146877044917081887466730420502931522806, 17292953260837809430307498696076604632436309690244453080877474858742017019315, 8907194770897736950665720599335188366370115469604664570871554980543856325878, 17044725145380540609584610992353149887302979757041644484792812749312843328686, 19203142437564873017106880535457805008329748467166651485811206874311253343667, 13502124729873225210375945988976127789788645815706031677422795621136482996047],
   [19348894197412380551643566409634373991551485498932776028807242453032209951102, 15437136872304192327373306394781178207271400438404338786402621346018696353989, 4809539199553098445050995244776005410251956741322959793147735742028358926994, 12685794492425721039347753241106547331969581117684382784882997001099732993379, 7450882276692640890939345624125441158335737458022842283052594022010711480306, 521080969748176629007658871212931866971399174787501555367632820569909598649, 4938159320080680676336117381321837700569862258631017615579005317691825492697],
   [4404648872969257810364592735492686096537071566377247232457261571451176014789, 5017761599784014466943340612494713172029018642089803735406715280700671947459, 14376253668488758070484831393372615271397273669257089987554854516730641092663, 4818119419190467304372114348574420383033536787723814573819495289007553304773, 18012349087149070926090904317522933813207166858278298088203139593768529914631, 3273553820903088305395896627165222612208532215708186269005181410662242268072, 12063790658230399153386853677175120841832507005379879726952326971678747431510],
   [21792900642210416799009159510096756961424841959918666951526519956832332257520, 6557970167286744419920959574704919529120683480272006929728426143131859992620, 11336674574760386335708850848160406738996154992456566731640264217734908192936, 16586597364203885693732469879681462278313682440275847435770359499046814462657, 15329494425624231011512502826221045838014348436105153257649097411687284484447, 6785322225588078171246991528230073634791736396651776347663350592558755432617, 9361366948186047762257799535882114070824534634660310704311214169372585311091],
   [11042318703359520404585069725605217725363513489037315328775860433219865620059, 21173386661394009924353692968028078453072526924314701056201113005046500272691, 14065336548609178426991830191048678810436666837378981460715424065180922753507, 13611373035974858955028130480828974048109465096355035067920674043575802275300, 2403553462863917968975097131695912207436011011386521127511586264340162082506, 6043670462380259286779949032008759251769902924408562404198575668060842065463, 17241455421126800004467547197101411580108162409937568664751047097391950856136],
   [7388657300704956265661384485355105297777496000300544104569230965761469689885, 16258689187839660424737840488846651305221405178689776054791019372017128513956, 10486645817334374610316750361455883834487278812603946802158860120600083194400, 88542018575339317341423553672006683301829905347212603927862585614144542089, 3396447015074322437788393216336862520234260185496210826320421628585578939725, 19309998454301055755754424228699344148314323186513830426587594163059150076684, 4377550557237143138037739654793610695467254742859740992250123127464966034765]]]

/-- The product of the matrix for `t` elements and its inverse, at one place. -/
def invEntry (t i j : ℕ) : ℕ := ((List.range t).map fun k => ((poseidonInv.getD (t - 2) []).getD i []).getD k 0 * ((poseidonM.getD (t - 2) []).getD k []).getD j 0).sum % Bn128

theorem inv_entries : ∀ t ∈ [2, 3, 4, 5, 6, 7], ∀ i < t, ∀ j < t, invEntry t i j = if i = j then 1 else 0 := by decide +kernel

def pInv (t : ℕ) : Matrix (Fin t) (Fin t) (ZMod Bn128) := fun i j => ((((poseidonInv.getD (t - 2) []).getD i []).getD j 0 : ℕ) : ZMod Bn128)

/-- The matrices of the code are invertible over the field of Bn128. -/
theorem pMat_inv (t : ℕ) (h2 : 2 ≤ t) (h7 : t ≤ 7) : pInv t * pMat Bn128 t = 1 := by
  ext i j
  have h := inv_entries t (by simp; omega) i i.2 j j.2
  have h' : ((invEntry t i j : ℕ) : ZMod Bn128) = ((if (i : ℕ) = j then 1 else 0 : ℕ) : ZMod Bn128) := by rw [h]
  rw [invEntry, ZMod.natCast_mod, Nat.cast_list_sum, List.map_map] at h'
  rw [Matrix.mul_apply, Matrix.one_apply]
  have e : ∀ f : ℕ → ZMod Bn128, ((List.range t).map f).sum = ∑ k : Fin t, f k := by
    intro f
    rw [← Finset.sum_range]
    simp [Finset.sum, Finset.range, Multiset.range]
  rw [e] at h'
  simp only [Function.comp, Nat.cast_mul] at h'
  simp only [pMat, pM, pInv]
  rw [h']
  by_cases hij : i = j
  · simp [hij]
  · simp [hij, Fin.val_inj]

/-! ### Evaluation -/

/-- A round on lists. -/
def roundN (q : ℕ) (M : List (List ℕ)) (c : List ℕ) (full : Bool) (s : List ℕ) : List ℕ :=
  let a := List.zipWith (· + ·) s c
  let b := a.mapIdx fun i x => if full || i == 0 then x ^ 5 % q else x
  M.map fun r => (List.zipWith (· * ·) r b).sum % q

def roundsN (q : ℕ) (M : List (List ℕ)) (c : List ℕ) (t rp : ℕ) (s : List ℕ) : ℕ → List ℕ
  | 0 => s
  | r + 1 => roundN q M ((c.drop (r * t)).take t) (decide (r < 4) || decide (4 + rp ≤ r)) (roundsN q M c t rp s r)

/-- A list and a state agree. -/
def Repr {q t : ℕ} (l : List ℕ) (s : Fin t → ZMod q) : Prop := l.length = t ∧ ∀ (i : ℕ) (h : i < t), ((l.getD i 0 : ℕ) : ZMod q) = s ⟨i, h⟩

theorem sum_zipWith {q : ℕ} : ∀ (t : ℕ) (r b : List ℕ), r.length = t → b.length = t → (((List.zipWith (· * ·) r b).sum : ℕ) : ZMod q) = ∑ j : Fin t, ((r.getD j 0 : ℕ) : ZMod q) * ((b.getD j 0 : ℕ) : ZMod q)
  | 0, [], [], _, _ => by simp
  | t + 1, x :: r, y :: b, hr, hb => by
    have := sum_zipWith (q := q) t r b (by simpa using hr) (by simpa using hb)
    rw [Fin.sum_univ_succ]
    simp only [List.zipWith_cons_cons, List.sum_cons, Nat.cast_add, Nat.cast_mul, this]
    rfl

theorem roundN_repr {q t : ℕ} {M : List (List ℕ)} {c : List ℕ} {full : Bool} {s : List ℕ} {M' : Matrix (Fin t) (Fin t) (ZMod q)} {c' : Fin t → ZMod q} {full' : Prop} [Decidable full'] {s' : Fin t → ZMod q} (hM : M.length = t)
    (hM1 : ∀ i < t, (M.getD i []).length = t) (hM2 : ∀ i j : Fin t, (((M.getD i []).getD j 0 : ℕ) : ZMod q) = M' i j) (hc : Repr c c') (hf : full = true ↔ full') (hs : Repr s s') : Repr (roundN q M c full s) (Poseidon.round M' c' full' s') := by
  refine ⟨by simp [roundN, hM], fun i hi => ?_⟩
  have hi' : i < M.length := by omega
  rw [roundN, Poseidon.round, Matrix.mulVec, dotProduct]
  have e1 : ∀ g : List ℕ → ℕ, (M.map g).getD i 0 = g (M.getD i []) := fun g => by simp [hi']
  rw [e1, ZMod.natCast_mod, sum_zipWith t _ _ (hM1 i hi) (by simp [hs.1, hc.1])]
  refine Finset.sum_congr rfl fun j _ => ?_
  rw [hM2 ⟨i, hi⟩ j]
  congr 1
  have hj1 : (j : ℕ) < s.length := by rw [hs.1]; exact j.2
  have hj2 : (j : ℕ) < c.length := by rw [hc.1]; exact j.2
  have e2 := hs.2 j j.2
  have e3 := hc.2 j j.2
  rw [List.getD_eq_getElem _ _ hj1] at e2
  rw [List.getD_eq_getElem _ _ hj2] at e3
  rw [List.getD_eq_getElem _ _ (by simp [hj1, hj2]), List.getElem_mapIdx, List.getElem_zipWith]
  by_cases h : full' ∨ (j : ℕ) = 0
  · rw [if_pos h, if_pos (by rcases h with h | h <;> simp [hf, h]), ZMod.natCast_mod, Nat.cast_pow, Nat.cast_add, e2, e3]
  · rw [if_neg h, if_neg (by simp only [not_or] at h; simp [hf, h]), Nat.cast_add, e2, e3]

theorem roundsN_repr {q t rp : ℕ} {M : List (List ℕ)} {c : List ℕ} {s : List ℕ} {M' : Matrix (Fin t) (Fin t) (ZMod q)} {c' : ℕ → ZMod q} {s' : Fin t → ZMod q} (hM : M.length = t)
    (hM1 : ∀ i < t, (M.getD i []).length = t) (hM2 : ∀ i j : Fin t, (((M.getD i []).getD j 0 : ℕ) : ZMod q) = M' i j) (hc : ∀ i < c.length, ((c.getD i 0 : ℕ) : ZMod q) = c' i) (hs : Repr s s') :
    ∀ n, n * t ≤ c.length → Repr (roundsN q M c t rp s n) (rounds M' c' rp s' n)
  | 0, _ => hs
  | n + 1, h => by
    rw [Nat.succ_mul] at h
    refine roundN_repr hM hM1 hM2 ⟨by simp; omega, fun i hi => ?_⟩ (by simp) (roundsN_repr hM hM1 hM2 hc hs n (by omega))
    beta_reduce
    rw [← hc (n * t + i) (by omega), List.getD_eq_getElem _ _ (by simp; omega), List.getD_eq_getElem _ _ (by omega)]
    simp

end Zok.Typed.Std
