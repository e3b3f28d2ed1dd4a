import Verif.Model.Solve
import Verif.Model.Nls
import Verif.Model.Samples

/-!
# Conformance of the model with the repository's own unit tests

The input and the expected output of every (not ignored) unit test of the repository, as exact decimals.  The model is
run on the input inside the kernel.  Integers and flags must agree exactly, numbers to a relative error of `1e-9` (the
expected values were computed in binary64).  These are tests of the model, not proofs of properties.

The data were transcribed from the sources mechanically.
-/

set_option autoImplicit false

namespace Verif.Conformance

open Verif

/-- Square roots to twenty decimals, powers `±1/m` to twelve. -/
local instance fine : ExactParams ℚ where
  eps := 1 / 4503599627370496
  sqrt x :=
    let a := (x.num.toNat * 10 ^ 40) / x.den
    mkRat (rootNat 2 a (Nat.log2 a / 2 + 1) 0) (10 ^ 20)
  powf b p :=
    let m := p.den
    let c := if p < 0 then 1 / b else b
    let a := (c.num.toNat * (10 ^ 12) ^ m) / c.den
    mkRat (rootNat m a (Nat.log2 a / m + 1) 0) (10 ^ 12)

def near (a b : ℚ) : Bool := decide (|a - b| ≤ |b| / 10 ^ 9)

def vec3 (a b c : ℚ) : Vec 3 ℚ := fun i => if i = 0 then a else if i = 1 then b else c

def rows (l : List (Vec 3 ℚ)) (j : Nat) : Vec 3 ℚ := l.getD j (fun _ => 0)

def arr (l : List ℚ) (j : Nat) : ℚ := l.getD j 0

def nearV (a b : Vec 3 ℚ) : Bool := near (a 0) (b 0) && near (a 1) (b 1) && near (a 2) (b 2)

/-- All six rows. -/
def nearM (a b : Nat → Vec 3 ℚ) : Bool := (List.range 6).all fun j => nearV (a j) (b j)

/-- All six entries. -/
def nearA (a b : Nat → ℚ) : Bool := (List.range 6).all fun j => near (a j) (b j)

def mat (l : List (List ℚ)) : Mat ℚ := fun i j => (l.getD i []).getD j 0

/-- `Dummy` (/repo/src/tests/mod.rs): residual and Jacobian leave their buffers alone. -/
def dummy : Problem 3 0 ℚ where
  res _ _ _ b := b
  jac _ _ _ _ _ m := m
  root _ _ _ b := b

/-- `Ida::new(Dummy {}, 0, 0, TolControlSS::new(1e-4, 1e-4))`. -/
def ida : State (Newton (Vec 3 ℚ)) 3 0 ℚ := State.new newton0 (fun _ => 0) (fun _ => 0)

def cfg : Cfg (Newton (Vec 3 ℚ)) 3 0 ℚ := Cfg.newton dummy (.ss (1 / 10000) (1 / 10000)) 3

/-- `set_coeffs.rs`, `test1`. -/
example : (setCoeffs
    { ida with
      h := { phi := rows [vec3 (41295003522440181/100000000000000000000000) (16518008147114031/10000000000000000000000000000) (12499994838103913/12500000000000000),
      vec3 (-12809946808957841/200000000000000000000000) (-25619916159829551/100000000000000000000000000000) (16012497581681749/250000000000000000000000),
      vec3 (5283860151248943/250000000000000000000000) (84541889872000439/1000000000000000000000000000000) (-264194064971581/12500000000000000000000),
      vec3 (-11175700403934371/500000000000000000000000) (-89405756031743853/1000000000000000000000000000000) (11175744818235309/500000000000000000000000),
      vec3 (3664621194687877/200000000000000000000000) (36646320597079997/500000000000000000000000000000) (-18323176512520801/1000000000000000000000000),
      vec3 (-11211836080973883/50000000000000000000000000) (-44854579833668809/50000000000000000000000000000000) (22422474012398869/100000000000000000000000000)]
             psi := arr [(66874844417638421/100000000), (7059011355195167/5000000), (18407375671333179/10000000), (2269240083872951/1250000), (5361691201178559/2500000), (26020582487631597/1000000000)]
             alpha := arr [(1), (5921052631578947/12500000000000000), (3633046101285709/10000000000000000), (40930763129879277/100000000000000000), (39999999999999997/100000000000000000), (7272727272727273/20000000000000000)]
             beta := arr [(1), (45000000000000001/50000000000000000), (10841585634594841/10000000000000000), (35332089881864119/10000000000000000), (71999999999999993/10000000000000000), (2057142857142857/200000000000000)]
             sigma := arr [(1), (5921052631578947/12500000000000000), (8604582871466153/25000000000000000), (72268199139687761/100000000000000000), (14222222222222223/10000000000000000), (25858585858585861/10000000000000000)]
             gamma := arr [(0), (1869163227047911/1250000000000000000000000), (22036450676775371/10000000000000000000000000), (28236868704168917/10000000000000000000000000), (3043712110995361/1000000000000000000000000), (31823098347208659/100000000000000000000000)] }
      c := { ida.c with hh := (66874844417638421/100000000), hused := (66874844417638421/100000000), ns := (1), kused := (2), kk := (2), cjlast := (24672954597032423/10000000000000000000000000) }
      e.cj := (2242995872457493/1000000000000000000000000) }).map (fun p =>
    near p.1.c.hh (66874844417638421/100000000) && near p.1.c.hused (66874844417638421/100000000) && decide (p.1.c.ns = (2) ∧ p.1.c.kused = (2) ∧ p.1.c.kk = (2)) &&
    near p.1.c.cjlast (2242995872457493/1000000000000000000000000) && near p.1.e.cj (2242995872457493/1000000000000000000000000) && near p.2 (3214285714285713969/10000000000000000000) &&
    nearA p.1.h.psi (arr [(66874844417638421/100000000), (3343742220881921/2500000), (325086049252409/156250), (2269240083872951/1250000), (5361691201178559/2500000), (26020582487631597/1000000000)]) &&
    nearA p.1.h.alpha (arr [(1), (1/2), (1607142857142857/5000000000000000), (40930763129879277/100000000000000000), (39999999999999997/100000000000000000), (7272727272727273/20000000000000000)]) &&
    nearA p.1.h.beta (arr [(1), (1), (94736842105263153/100000000000000000), (35332089881864119/10000000000000000), (71999999999999993/10000000000000000), (2057142857142857/200000000000000)]) &&
    nearA p.1.h.sigma (arr [(1), (1/2), (1607142857142857/5000000000000000), (72268199139687761/100000000000000000), (14222222222222223/10000000000000000), (25858585858585861/10000000000000000)]) &&
    nearA p.1.h.gamma (arr [(0), (1869163227047911/1250000000000000000000000), (2242995872457493/1000000000000000000000000), (28236868704168917/10000000000000000000000000), (3043712110995361/1000000000000000000000000), (31823098347208659/100000000000000000000000)]) &&
    nearM p.1.h.phi (rows [vec3 (41295003522440181/100000000000000000000000) (16518008147114031/10000000000000000000000000000) (12499994838103913/12500000000000000),
      vec3 (-12809946808957841/200000000000000000000000) (-25619916159829551/100000000000000000000000000000) (16012497581681749/250000000000000000000000),
      vec3 (20023048994206519/1000000000000000000000000) (40046158360421259/500000000000000000000000000000) (-10011564567344121/500000000000000000000000),
      vec3 (-11175700403934371/500000000000000000000000) (-89405756031743853/1000000000000000000000000000000) (11175744818235309/500000000000000000000000),
      vec3 (3664621194687877/200000000000000000000000) (36646320597079997/500000000000000000000000000000) (-18323176512520801/1000000000000000000000000),
      vec3 (-11211836080973883/50000000000000000000000000) (-44854579833668809/50000000000000000000000000000000) (22422474012398869/100000000000000000000000000)])) = some true := by decide +kernel

/-- `set_coeffs.rs`, `test2`. -/
example : (setCoeffs
    { ida with
      h := { phi := rows [vec3 (99992400889930733/100000000000000000) (8971107006131787/250000000000000000000) (40106672668125017/1000000000000000000000),
      vec3 (-6874309726011061/500000000000000000000) (11636437126348729/10000000000000000000000) (12584975739367733/1000000000000000000000),
      vec3 (4281401907391411/2500000000000000000000000) (-6589343643364421/5000000000000000000000) (3290390419932399/2500000000000000000000),
      vec3 (21033954646845001/100000000000000000000000000) (10217905523752639/10000000000000000000000) (-10220008918107099/10000000000000000000000),
      vec3 (-6937775385908777/50000000000000000000000000) (13559268269012917/10000000000000000000000) (-13557880688400603/10000000000000000000000),
      vec3 (-11465196356066767/100000000000000000000000000) (10010967987167691/50000000000000000000000) (-20010470777979317/100000000000000000000000)]
             psi := arr [(6876860962843239/20000000000000000000), (6876860962843239/10000000000000000000), (10315291444264857/10000000000000000000), (9742298787216347/12500000000000000000), (2164955286048077/6250000000000000000), (0)]
             alpha := arr [(1), (1/2), (33333333333333337/100000000000000000), (22222222222222221/50000000000000000), (1/2), (0)]
             beta := arr [(1), (1), (1), (48000000000000007/10000000000000000), (15), (0)]
             sigma := arr [(1), (1/2), (33333333333333337/100000000000000000), (22222222222222221/25000000000000000), (24380952380952383/10000000000000000), (0)]
             gamma := arr [(0), (29083036734439079/10000000000000), (5453069387707327/1250000000000), (31274702886325449/5000000000000), (16001650180080363/1000000000000), (0)] }
      c := { ida.c with hh := (6876860962843239/20000000000000000000), hused := (6876860962843239/20000000000000000000), ns := (2), kused := (2), kk := (2), cjlast := (5453069387707327/1250000000000) }
      e.cj := (5453069387707327/1250000000000) }).map (fun p =>
    near p.1.c.hh (6876860962843239/20000000000000000000) && near p.1.c.hused (6876860962843239/20000000000000000000) && decide (p.1.c.ns = (3) ∧ p.1.c.kused = (2) ∧ p.1.c.kk = (2)) &&
    near p.1.c.cjlast (5453069387707327/1250000000000) && near p.1.e.cj (5453069387707327/1250000000000) && near p.2 (1666666666666667407/5000000000000000000) &&
    nearA p.1.h.psi (arr [(6876860962843239/20000000000000000000), (6876860962843239/10000000000000000000), (10315291444264857/10000000000000000000), (9742298787216347/12500000000000000000), (2164955286048077/6250000000000000000), (0)]) &&
    nearA p.1.h.alpha (arr [(1), (1/2), (33333333333333337/100000000000000000), (22222222222222221/50000000000000000), (1/2), (0)]) &&
    nearA p.1.h.beta (arr [(1), (1), (1), (48000000000000007/10000000000000000), (15), (0)]) &&
    nearA p.1.h.sigma (arr [(1), (1/2), (33333333333333337/100000000000000000), (22222222222222221/25000000000000000), (24380952380952383/10000000000000000), (0)]) &&
    nearA p.1.h.gamma (arr [(0), (29083036734439079/10000000000000), (5453069387707327/1250000000000), (31274702886325449/5000000000000), (16001650180080363/1000000000000), (0)]) &&
    nearM p.1.h.phi (rows [vec3 (99992400889930733/100000000000000000) (8971107006131787/250000000000000000000) (40106672668125017/1000000000000000000000),
      vec3 (-6874309726011061/500000000000000000000) (11636437126348729/10000000000000000000000) (12584975739367733/1000000000000000000000),
      vec3 (4281401907391411/2500000000000000000000000) (-6589343643364421/5000000000000000000000) (3290390419932399/2500000000000000000000),
      vec3 (21033954646845001/100000000000000000000000000) (10217905523752639/10000000000000000000000) (-10220008918107099/10000000000000000000000),
      vec3 (-6937775385908777/50000000000000000000000000) (13559268269012917/10000000000000000000000) (-13557880688400603/10000000000000000000000),
      vec3 (-11465196356066767/100000000000000000000000000) (10010967987167691/50000000000000000000000) (-20010470777979317/100000000000000000000000)])) = some true := by decide +kernel

/-- `predict.rs`, `test1`. -/
example : (predict
    { ida with
      h.phi := rows [vec3 (5285076018614479/50000000000000000000000) (42280612558303261/100000000000000000000000000000) (1249999867872571/1250000000000000),
      vec3 (-2067637275793519/62500000000000000000000) (-661644091435521/5000000000000000000000000000) (16541164338030767/500000000000000000000000),
      vec3 (9337636929665217/500000000000000000000000) (9337641088290483/125000000000000000000000000000) (-9337674400525127/500000000000000000000000),
      vec3 (-2494562726692767/125000000000000000000000) (-7982605780305829/100000000000000000000000000000) (19956580862443821/1000000000000000000000000),
      vec3 (200811601243939/156250000000000000000000) (51407743965993651/10000000000000000000000000000000) (-12851948368212051/10000000000000000000000000),
      vec3 (-11211836080973883/50000000000000000000000000) (-44854579833668809/50000000000000000000000000000000) (22422474012398869/100000000000000000000000000)]
      h.gamma := arr [(0), (13248462726719731/50000000000000000000000000), (19431094479962591/50000000000000000000000000), (40498536586038069/50000000000000000000000000), (3043712110995361/1000000000000000000000000), (31823098347208659/100000000000000000000000)]
      c.kk := (2)
      e.yypredict := vec3 (3141450554645793/25000000000000000000000) (50263218338609083/100000000000000000000000000000) (99999987434147597/100000000000000000)
      e.yppredict := vec3 (7924301345164041/5000000000000000000000000000000000) (7924320828549901/1250000000000000000000000000000000000000) (-15848663595269871/10000000000000000000000000000000000) }).map (fun s =>
    decide (s.c.kk = (2)) && nearM s.h.phi (rows [vec3 (5285076018614479/50000000000000000000000) (42280612558303261/100000000000000000000000000000) (1249999867872571/1250000000000000),
      vec3 (-2067637275793519/62500000000000000000000) (-661644091435521/5000000000000000000000000000) (16541164338030767/500000000000000000000000),
      vec3 (9337636929665217/500000000000000000000000) (9337641088290483/125000000000000000000000000000) (-9337674400525127/500000000000000000000000),
      vec3 (-2494562726692767/125000000000000000000000) (-7982605780305829/100000000000000000000000000000) (19956580862443821/1000000000000000000000000),
      vec3 (200811601243939/156250000000000000000000) (51407743965993651/10000000000000000000000000000000) (-12851948368212051/10000000000000000000000000),
      vec3 (-11211836080973883/50000000000000000000000000) (-44854579833668809/50000000000000000000000000000000) (22422474012398869/100000000000000000000000000)]) &&
    nearV s.e.yypredict (vec3 (45647298909461857/500000000000000000000000) (3651784360022523/10000000000000000000000000000) (99999990870503663/100000000000000000)) &&
    nearV s.e.yppredict (vec3 (-15081447058360581/10000000000000000000000000000000000) (-60325745419028739/10000000000000000000000000000000000000000) (3016301255137159/2000000000000000000000000000000000))) = some true := by decide +kernel

/-- `test_error.rs`, `test1`. -/
example : (testError cfg
    { ida with
      h.phi := rows [vec3 (1817282658579499/50000000000000000000) (1453878335134203/10000000000000000000000000) (2499909135503601/2500000000000000),
      vec3 (-6530333550677049/1000000000000000000000) (-522465891793693/20000000000000000000000000) (6530359673556191/1000000000000000000000),
      vec3 (973221364013071/500000000000000000000) (3893343637997173/500000000000000000000000000) (-1946450515496441/1000000000000000000000),
      vec3 (-8097632208221231/10000000000000000000000) (-809896387259691/250000000000000000000000000) (1619532911201123/2000000000000000000000),
      vec3 (3718130977075839/10000000000000000000000) (743786731150219/500000000000000000000000000) (-74362923158709/200000000000000000000),
      vec3 (-324421895454213/1000000000000000000000) (-1297915245220823/1000000000000000000000000000) (3244230624265827/10000000000000000000000)]
      h.sigma := arr [(1), (3333333333333333/5000000000000000), (3333333333333333/5000000000000000), (888888888888889/1000000000000000), (711111111111111/500000000000000), (1292929292929293/500000000000000)]
      c.kk := (5)
      ee := vec3 (265787533317467/1000000000000000000000) (531637922900817/500000000000000000000000000) (-1328942144193069/5000000000000000000000)
      e.ewt := vec3 (7334300556993243/100000000) (999999985461217/1000000000) (9901346408259429/1000000000000) } (545707070707071/500000000000000)).map (fun p =>
    decide (p.1.c.knew = (4) ∧ p.2.passed = false) && near p.2.errk (582059595062849/20000000000000) && near p.2.errkm1 (1765581417688751/500000000000000)) = some true := by decide +kernel

/-- `test_error.rs`, `test2`. -/
example : (testError cfg
    { ida with
      h.phi := rows [vec3 (3051237735052657/100000000000000000000) (1220531905117091/10000000000000000000000000) (9999694875005963/10000000000000000),
      vec3 (-2513114849098281/1000000000000000000000) (-502654487113367/50000000000000000000000000) (502624980544353/200000000000000000000),
      vec3 (4500284453718991/10000000000000000000000) (1800291970640913/1000000000000000000000000000) (-1125075612124773/2500000000000000000000),
      vec3 (-1366709389821433/10000000000000000000000) (-2733801846951171/5000000000000000000000000000) (1366714866794709/10000000000000000000000),
      vec3 (7278821769100639/100000000000000000000000) (1455990783314399/5000000000000000000000000000) (-7278850816613011/100000000000000000000000),
      vec3 (-8304741244343501/1000000000000000000000000) (-415573391398447/12500000000000000000000000000) (8304772990651073/1000000000000000000000000)]
      h.sigma := arr [(1), (1/2), (642857142857143/2000000000000000), (2396514200444849/10000000000000000), (1941955227762807/10000000000000000), (1292929292929293/500000000000000)]
      c.kk := (4)
      ee := vec3 (-2981302228744271/100000000000000000000000) (-298178169101597/2500000000000000000000000000) (745328468155027/25000000000000000000000)
      e.ewt := vec3 (7662108531777237/100000000) (9999999877946811/10000000000) (9901289220872719/1000000000000) } (2025812352167927/10000000000000000)).map (fun p =>
    decide (p.1.c.knew = (4) ∧ p.2.passed = true) && near p.2.errk (320142186179247/1250000000000000) && near p.2.errkm1 (455601916633899/1000000000000000)) = some true := by decide +kernel

/-- `restore.rs`, `test_restore1` (without the scratch array `cvals`). -/
example : (restore
    { ida with
      h.phi := rows [vec3 (49997575392538607/50000000000000000) (16119635935292259/500000000000000000000) (16252877357362511/1000000000000000000000),
      vec3 (-13853817751912549/500000000000000000000) (97313256739903617/10000000000000000000000) (8988154914882733/500000000000000000000),
      vec3 (545869549282629/156250000000000000000000) (-10880124117276491/1000000000000000000000) (2175326110268283/200000000000000000000),
      vec3 (3543381096546741/6250000000000000000000000) (427575177629937/20000000000000000000000) (-5486425269547413/250000000000000000000000),
      vec3 (-6937775385908777/50000000000000000000000000) (13559268269012917/10000000000000000000000) (-13557880688400603/10000000000000000000000),
      vec3 (-11465196356066767/100000000000000000000000000) (10010967987167691/50000000000000000000000) (-20010470777979317/100000000000000000000000)]
      h.psi := arr [(2164955286048077/3125000000000000000), (1039178537303077/1000000000000000000), (13855713830707693/10000000000000000000), (9742298787216347/12500000000000000000), (2164955286048077/6250000000000000000), (0)]
      h.beta := arr [(1), (2), (3), (48000000000000007/10000000000000000), (15), (0)]
      c.kk := (2), c.ns := (1), c.hh := (2164955286048077/3125000000000000000)
      e.tn := (4762901629305769/2500000000000000000) } (1212374960186923/1000000000000000000)).map (fun s =>
    decide (s.e.tn = (1212374960186923/1000000000000000000) ∧ s.c.ns = 1 ∧ s.c.kk = 2) &&
    nearA s.h.beta (arr [(1), (2), (3), (48000000000000007/10000000000000000), (15), (0)]) &&
    nearA s.h.psi (arr [(34639284576769237/100000000000000000000), (2164955286048077/3125000000000000000), (13855713830707693/10000000000000000000), (9742298787216347/12500000000000000000), (2164955286048077/6250000000000000000), (0)]) &&
    nearM s.h.phi (rows [vec3 (49997575392538607/50000000000000000) (16119635935292259/500000000000000000000) (16252877357362511/1000000000000000000000),
      vec3 (-13853817751912549/1000000000000000000000) (760259818280497/156250000000000000000) (22470387287206833/2500000000000000000000),
      vec3 (181956516427543/156250000000000000000000) (-7253416078184327/2000000000000000000000) (36255435171138049/10000000000000000000000),
      vec3 (3543381096546741/6250000000000000000000000) (427575177629937/20000000000000000000000) (-5486425269547413/250000000000000000000000),
      vec3 (-6937775385908777/50000000000000000000000000) (13559268269012917/10000000000000000000000) (-13557880688400603/10000000000000000000000),
      vec3 (-11465196356066767/100000000000000000000000000) (10010967987167691/50000000000000000000000) (-20010470777979317/100000000000000000000000)])) = some true := by decide +kernel

/-- `complete_step.rs`, `test1`. -/
example : (completeStep cfg
    { ida with
      h.phi := rows [vec3 (1) (0) (0),
      vec3 (-86598211441923077/100000000000000000000000) (86598211441923077/100000000000000000000000) (0),
      vec3 (0) (0) (0),
      vec3 (0) (0) (0),
      vec3 (0) (0) (0),
      vec3 (0) (0) (0)]
      ee := vec3 (37500779304150953/50000000000000000000000000000) (-24363406810522173/50000000000000000000000000) (12162953015609009/25000000000000000000000000)
      e.ewt := vec3 (99990000999900003/10000000000000) (1000000) (1000000)
      c := { ida.c with kk := (1), kused := (0), knew := (1), phase := (0), hh := (2164955286048077/100000000000000000000), hused := (0), rr := (0) }
      cnt.nst := (0) } (1987733462845937/10000000000000000000) (0)).map (fun s =>
    decide (s.cnt.nst = (1) ∧ s.c.kk = (1) ∧ s.c.kused = (1) ∧ s.c.knew = (1) ∧ s.c.phase = (0)) &&
    near s.c.hh (2164955286048077/100000000000000000000) && near s.c.hused (2164955286048077/100000000000000000000) && near s.c.rr (0) &&
    nearV s.ee (vec3 (37500779304150953/50000000000000000000000000000) (-24363406810522173/50000000000000000000000000) (12162953015609009/25000000000000000000000000)) && nearV s.e.ewt (vec3 (99990000999900003/10000000000000) (1000000) (1000000)) &&
    nearM s.h.phi (rows [vec3 (2499997835046589/2500000000000000) (43274742314151017/50000000000000000000000) (12162953015609009/25000000000000000000000000),
      vec3 (-43299068220182233/50000000000000000000000) (43274742314151017/50000000000000000000000) (12162953015609009/25000000000000000000000000),
      vec3 (37500779304150953/50000000000000000000000000000) (-24363406810522173/50000000000000000000000000) (12162953015609009/25000000000000000000000000),
      vec3 (0) (0) (0),
      vec3 (0) (0) (0),
      vec3 (0) (0) (0)])) = some true := by decide +kernel

/-- `complete_step.rs`, `test2`. -/
example : (completeStep cfg
    { ida with
      h.phi := rows [vec3 (24999956700950543/25000000000000000) (17295310279504897/10000000000000000000000) (24309503863111873/10000000000000000000000000),
      vec3 (-4329903069665781/2500000000000000000000) (17280723633349389/10000000000000000000000) (4861080664217067/1250000000000000000000000),
      vec3 (2251411465187169/1000000000000000000000000000) (-8751987693305173/2000000000000000000000000) (21868712175936997/5000000000000000000000000),
      vec3 (0) (0) (0),
      vec3 (0) (0) (0),
      vec3 (0) (0) (0)]
      ee := vec3 (-42122294839452673/100000000000000000000000000000) (-12302721385611867/5000000000000000000000000) (6152413750176921/2500000000000000000000000)
      e.ewt := vec3 (49995087080881831/5000000000000) (99982707680480811/100000000000) (19999995138100409/20000000000)
      c := { ida.c with kk := (2), kused := (1), knew := (2), phase := (0), hh := (2164955286048077/50000000000000000000), hused := (2164955286048077/100000000000000000000), rr := (0) }
      cnt.nst := (2) } (53573974264173/40000000000000000) (1860259843540959/500000000000000000)).map (fun s =>
    decide (s.cnt.nst = (3) ∧ s.c.kk = (3) ∧ s.c.kused = (2) ∧ s.c.knew = (2) ∧ s.c.phase = (0)) &&
    near s.c.hh (86598211441923079/1000000000000000000000) && near s.c.hused (2164955286048077/50000000000000000000) && near s.c.rr (0) &&
    nearV s.ee (vec3 (-42122294839452673/100000000000000000000000000000) (-12302721385611867/5000000000000000000000000) (6152413750176921/2500000000000000000000000)) && nearV s.e.ewt (vec3 (49995087080881831/5000000000000) (99982707680480811/100000000000) (19999995138100409/20000000000)) &&
    nearM s.h.phi (rows [vec3 (24999913401965601/25000000000000000) (34507668531616537/10000000000000000000000) (411078839154469/31250000000000000000000),
      vec3 (-4329898494194489/2500000000000000000000) (430308956302791/250000000000000000000) (536178623331591/50000000000000000000000),
      vec3 (18301885167926423/10000000000000000000000000000) (-34182690618874797/5000000000000000000000000) (2733883174103267/400000000000000000000000),
      vec3 (-42122294839452673/100000000000000000000000000000) (-12302721385611867/5000000000000000000000000) (6152413750176921/2500000000000000000000000),
      vec3 (0) (0) (0),
      vec3 (0) (0) (0)])) = some true := by decide +kernel

/-- `complete_step.rs`, `test3`. -/
example : (completeStep cfg
    { ida with
      h.phi := rows [vec3 (99989651723441231/100000000000000000) (18263342386763067/500000000000000000000) (66956080814055887/1000000000000000000000),
      vec3 (-13744883185162313/1000000000000000000000) (16198423621611769/100000000000000000000000) (6791449474415349/500000000000000000000),
      vec3 (18985246772161757/10000000000000000000000000) (-31828827656675421/100000000000000000000000) (1265559006922101/4000000000000000000000),
      vec3 (60782494622797157/1000000000000000000000000000) (36508292328524681/100000000000000000000000) (-18257185300095709/50000000000000000000000),
      vec3 (-6937775385908777/50000000000000000000000000) (13559268269012917/10000000000000000000000) (-13557880688400603/10000000000000000000000),
      vec3 (-11465196356066767/100000000000000000000000000) (10010967987167691/50000000000000000000000) (-20010470777979317/100000000000000000000000)]
      ee := vec3 (-30358000609489579/1000000000000000000000000000) (-10239025197558141/50000000000000000000000) (10240543132560641/50000000000000000000000)
      e.ewt := vec3 (5000017413888587/500000000000) (99636062495315843/100000000000) (99334892491071229/100000000000)
      c := { ida.c with kk := (3), kused := (2), knew := (2), phase := (1), hh := (6876860962843239/20000000000000000000), hused := (6876860962843239/20000000000000000000), rr := (17379509697128959/10000000000000000) }
      cnt.nst := (12) } (2079434627748013/50000000000000000) (434084688121079/10000000000000000)).map (fun s =>
    decide (s.cnt.nst = (13) ∧ s.c.kk = (2) ∧ s.c.kused = (3) ∧ s.c.knew = (2) ∧ s.c.phase = (1)) &&
    near s.c.hh (6876860962843239/10000000000000000000) && near s.c.hused (6876860962843239/20000000000000000000) && near s.c.rr (22575213239991561/10000000000000000) &&
    nearV s.ee (vec3 (-30358000609489579/1000000000000000000000000000) (-10239025197558141/50000000000000000000000) (10240543132560641/50000000000000000000000)) && nearV s.e.ewt (vec3 (5000017413888587/500000000000) (99636062495315843/100000000000) (99334892491071229/100000000000)) &&
    nearM s.h.phi (rows [vec3 (24997069357004409/25000000000000000) (18265341576254791/500000000000000000000) (16139007334253281/200000000000000000000),
      vec3 (-13742954235991083/1000000000000000000000) (39983789834474729/10000000000000000000000000) (13738955857210521/1000000000000000000000),
      vec3 (19289491712294831/10000000000000000000000000) (-7899292861633511/50000000000000000000000) (3901422709495597/25000000000000000000000),
      vec3 (15212247006653789/500000000000000000000000000) (40075604833521/250000000000000000000) (-2004160541883767/12500000000000000000000),
      vec3 (-30358000609489579/1000000000000000000000000000) (-10239025197558141/50000000000000000000000) (10240543132560641/50000000000000000000000),
      vec3 (-11465196356066767/100000000000000000000000000) (10010967987167691/50000000000000000000000) (-20010470777979317/100000000000000000000000)])) = some true := by decide +kernel

/-- `get_solution.rs`, `test_get_solution`. -/
example : (match getSolution
    { ida with
      h.phi := rows [vec3 (5716499633245077/10000000000000000000000) (571650286152507/250000000000000000000000000) (9999994283477499/10000000000000000),
      vec3 (-7779233860067279/100000000000000000000000) (-3111697299545603/10000000000000000000000000000) (7779264957586927/100000000000000000000000),
      vec3 (2339417551980491/100000000000000000000000) (233942209355687/2500000000000000000000000000) (-116971346166423/5000000000000000000000),
      vec3 (-2375836608145401/250000000000000000000000) (-1900674787635261/50000000000000000000000000000) (2375845973908609/250000000000000000000000),
      vec3 (1942093290327647/250000000000000000000000) (3107357755532867/100000000000000000000000000000) (-1553681484495349/200000000000000000000000),
      vec3 (-2242367216194777/10000000000000000000000000) (-4485457983366881/5000000000000000000000000000000) (2242247401239887/10000000000000000000000000)]
      h.psi := arr [(4289352960942847/10000000), (4289352960942847/5000000), (16755285003683/15625), (643402944141427/500000), (1501273536329997/1000000), (65051456219079/2500000)]
      c.hh := (4289352960942847/5000000), c.hused := (4289352960942847/10000000), c.kused := (4)
      e.tn := (90577958406061/25000) } (90577958406061/25000) with
    | .ret s (.ok ()) => nearV s.m.yy (vec3 (5716499633245077/10000000000000000000000) (571650286152507/250000000000000000000000000) (9999994283477499/10000000000000000)) &&
        nearV s.m.yp (vec3 (-98072967394847/625000000000000000000000000000) (-6276676917262037/10000000000000000000000000000000000000) (196146714870313/1250000000000000000000000000000))
    | _ => false) = true := by decide +kernel

/-- `dense.rs`, `test_get_rs1`. -/
example : (denseGetRs 3 (mat [[(1), (1), (1)], [(40000000000000001/1000000000000000000), (-95620329139608493/10000000000000), (-41880782326080723/1000000000000000000)], [(-40655973218655501/1000000000000000000), (-12485248045501901/12500000000000000), (70539909027303449/100000000000000000000)]]) ([(2), (1), (2)].getD · 0) (arr [(-4664680502846641/25000000000000000000000), (1791760359416981/10000000000000000000000), (3858025010572419/250000000000000000000000000000)])).map (fun b =>
    (List.range 3).all fun i => near (b i) (arr [(432244376109811/40000000000000000000), (14295782058822301/500000000000000000000000000), (-2701534494719323/250000000000000000000)] i)) = some true := by decide +kernel

/-- `dense.rs`, `test_get_rs2`. -/
example : (denseGetRs 3 (mat [[(1), (1), (1)], [(40000000000000001/1000000000000000000), (-93768756693193609/10000000000000), (-854586286992427/20000000000000000)], [(-8236150358715981/200000000000000000), (-99825358822328103/100000000000000000), (6276873856856033/5000000000000000000)]]) ([(2), (1), (2)].getD · 0) (arr [(-46223323507009977/50000000000000000000000), (9098297931611867/10000000000000000000000), (5384581669432009/500000000000000000000000000000)])).map (fun b =>
    (List.range 3).all fun i => near (b i) (arr [(12924954909363613/1000000000000000000000), (-38131780122501411/1000000000000000000000000000), (-12924916766814327/1000000000000000000000)] i)) = some true := by decide +kernel

/-- `dense.rs`, `test_get_rf1`. -/
example : (match denseGetRf 3 3 (mat [[(-4796736931018563/50000000000000000), (52745976183265557/10000000000000), (35103714444140913/1000000000000000000)], [(40000000000000001/1000000000000000000), (-27426379198650111/5000000000000), (-35103714444140913/1000000000000000000)], [(1), (1), (1)]]) (fun _ => 0) with
    | .ok a p => (List.range 3).all (fun i => (List.range 3).all fun j => near (a i j) (mat [[(1), (1), (1)], [(40000000000000001/1000000000000000000), (-27426579198650111/5000000000000), (-75103714444140907/1000000000000000000)], [(-4796736931018563/50000000000000000), (-48080126169405657/50000000000000000), (11763706347841199/200000000000000000)]] i j)) &&
        decide ((List.range 3).map p = [(2), (1), (2)])
    | _ => false) = true := by decide +kernel

/-- `dense.rs`, `test_get_rf2`. -/
example : (match denseGetRf 3 3 (mat [[(-42361503587159809/1000000000000000000), (93138399601148321/10000000000000), (29441927049318833/10000000000000000000)], [(40000000000000001/1000000000000000000), (-2332876869462003/250000000000), (-29441927049318833/10000000000000000000)], [(1), (1), (1)]]) (fun _ => 0) with
    | .ok a p => (List.range 3).all (fun i => (List.range 3).all fun j => near (a i j) (mat [[(1), (1), (1)], [(40000000000000001/1000000000000000000), (-93315474778480129/10000000000000), (-42944192704931883/1000000000000000000)], [(-42361503587159809/1000000000000000000), (-99810694246891751/100000000000000000), (24427994145761397/10000000000000000000)]] i j)) &&
        decide ((List.range 3).map p = [(2), (1), (2)])
    | _ => false) = true := by decide +kernel

/-- `dense.rs`, `test_dense1`. -/
example : (match denseSetup 4 (mat [[(5), (0), (0), (1)], [(2), (2), (2), (1)], [(4), (5), (5), (5)], [(1), (6), (4), (5)]]) (fun _ => 0) with
    | .ok a p => (denseSolve 4 a p (arr [(9), (16), (49), (45)])).map (fun x => (List.range 4).all fun i => near (x i) (arr [(1), (2), (3), (4)] i))
    | _ => none) = some true := by decide +kernel

/-- The problem of `newton.rs`, `test_newton`: matrix, pivots and solution vector as memory. -/
structure TestMem where
  a : Mat ℚ
  piv : Nat → Nat
  x : Vec 3 ℚ

def testNl : NLProblem TestMem (Vec 3 ℚ) ℚ where
  sys s y _ := (s, vec3 (y 0 ^ 2 + y 1 ^ 2 + y 2 ^ 2 - 1) (2 * y 0 ^ 2 + y 1 ^ 2 - 4 * y 2)
    (3 * y 0 ^ 2 - 4 * y 1 + y 2 ^ 2), .ok ())
  setup s y _ _ :=
    match denseSetup 3 (mat [[2 * y 0, 2 * y 1, 2 * y 2], [4 * y 0, 2 * y 1, -4], [6 * y 0, -4, 2 * y 2]]) s.piv with
    | .ok a p => ({ s with a := a, piv := p }, .ok true)
    | .err _ a p => ({ s with a := a, piv := p }, .err (.other "linear solver"))
    | .panic => (s, .panic)
  solve s _ b :=
    match denseSolve 3 s.a s.piv b.toFun with
    | some x => ({ s with x := Vec.ofFun x }, Vec.ofFun x, .ok ())
    | none => (s, b, .panic)
  ctest s _ _ del tol w := (s, .ok (decide (normWrms del w ≤ tol)))

/-- `newton.rs`, `test_newton` (tolerance `1e-5` on the error, as in the source). -/
example : (match newtonSolve testNl 2 (Newton.new (fun _ => 0) 10) ⟨fun _ _ => 0, fun _ => 0, fun _ => 0⟩
      (fun _ => 1 / 2) (fun _ => 0) (fun _ => 1) (1 / 100) true with
    | .done _ _ y (.ok ()) =>
        let d := y - vec3 (785196933062355226 / 10 ^ 18) (496611392944656396 / 10 ^ 18) (369922830745872357 / 10 ^ 18)
        let e := vec3 (-578453 / 10 ^ 8) (10143 / 10 ^ 12) (147767 / 10 ^ 13)
        (List.finRange 3).all fun i => decide (|d i - e i| ≤ |e i| / 10 ^ 5)
    | _ => false) = true := by decide +kernel

/-- `norm_rms.rs` and `norm_wrms.rs`, `test_norm_wrms`. -/
example : normWrms (fun _ : Fin 32 => (-1 / 2 : ℚ)) (fun _ => 1 / 2) = 1 / 4 := by decide +kernel

/-- `norm_rms.rs`, `test_norm_wrms_masked`. -/
example : near (normWrmsMasked (fun _ : Fin 32 => (-1 / 2 : ℚ)) (fun _ => 1 / 2) (fun i => decide (i.val ≠ 31)))
    (fine.sqrt (31 / 32) * (1 / 2) * (1 / 2)) = true := by decide +kernel


end Verif.Conformance