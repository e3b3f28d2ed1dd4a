import Verif.B64
import Verif.Model.Solve

/-!
# The unit tests of the crate, run on the model

The model is executed in binary64 arithmetic on the data of the unit tests in /repo/src/tests, and the postconditions of the tests
are checked by the kernel.  These are tests of the model (that it computes what the code computes), not properties of the code.
`tests/nonlinear_solve.rs` is disabled (`#[ignore]`) in the crate.
-/

set_option autoImplicit false

namespace Verif.Conform

open Verif

/-- `array![a, b, c]` -/
def vec (l : List ℚ) : Vec 3 B64 := fun i => .of (l.getD i 0)
/-- A matrix with rows of three numbers. -/
def tab (l : List (List ℚ)) : Nat → Vec 3 B64 := fun j => vec (l.getD j [])
/-- An array of numbers. -/
def arr (l : List ℚ) : Nat → B64 := fun j => .of (l.getD j 0)

/-- Equality up to the relative error `e` (equality if `e = 0`). -/
def eqNum (e : ℚ) (a b : B64) : Bool := decide (|a.v - b.v| ≤ e * (|a.v| + |b.v|))
def eqVec (e : ℚ) (a b : Vec 3 B64) : Bool := eqNum e (a 0) (b 0) && eqNum e (a 1) (b 1) && eqNum e (a 2) (b 2)
def eqArr (e : ℚ) (a b : Nat → B64) : Bool := (List.range 6).all fun j => eqNum e (a j) (b j)
def eqTab (e : ℚ) (a b : Nat → Vec 3 B64) : Bool := (List.range 6).all fun j => eqVec e (a j) (b j)

/-- The tests use `assert_nearly_eq!`, which allows `1e-6`; the results agree much better. -/
def tol : ℚ := 1 / 10 ^ 13

/-- `Dummy` (/repo/src/tests/mod.rs:19-61): no function does anything. -/
def dummy : Problem 3 0 B64 where
  res _ _ _ r := r
  jac _ _ _ _ _ j := j
  root _ _ _ g := g

def dummyCfg : Cfg Nat 3 0 B64 :=
  Cfg.std dummy (fun y _ => (TolControl.ss (.of (1 / 10 ^ 4)) (.of (1 / 10 ^ 4)) : TolControl 3 B64).ewtSet y)
    { solve := fun N _ m _ _ _ _ _ => .ret N m (fun _ => 0) (.ok ()), numIters := fun N => N }

/-- `Ida::new(Dummy {}, [0, 0, 0], [0, 0, 0], ..)` -/
def blank : State Nat 3 0 B64 := State.new 0 (fun _ => 0) (fun _ => 0)

/-- Preconditions of /repo/src/tests/complete_step.rs, `test1`. -/
def completeStep1Before : State Nat 3 0 B64 := { blank with
  h.phi := tab [[1, 0, 0],
    [-86598211441923077 / 10 ^ 23, 86598211441923077 / 10 ^ 23, 0],
    [0, 0, 0],
    [0, 0, 0],
    [0, 0, 0],
    [0, 0, 0]],
  ee := vec [75001558608301906 / 10 ^ 29, -48726813621044346 / 10 ^ 26, 48651812062436036 / 10 ^ 26],
  e.ewt := vec [99990000999900003 / 10 ^ 13, 1 * 10 ^ 6, 1 * 10 ^ 6],
  c.kk := 1,
  c.kused := 0,
  c.knew := 1,
  c.phase := 0,
  c.hh := .of (2164955286048077 / 10 ^ 20),
  c.hused := .of (0),
  c.rr := .of (0),
  cnt.nst := 0 }

/-- /repo/src/tests/complete_step.rs, `test1`: the postconditions, with equality of binary64 numbers. -/
def completeStep1Check : Bool :=
  match completeStep dummyCfg completeStep1Before (.of (1987733462845937 / 10 ^ 19)) (.of (0)) with
  | none => false
  | some s =>
      eqTab 0 s.h.phi (tab [[9999991340186356 / 10 ^ 16, 86549484628302034 / 10 ^ 23, 48651812062436036 / 10 ^ 26],
    [-86598136440364466 / 10 ^ 23, 86549484628302034 / 10 ^ 23, 48651812062436036 / 10 ^ 26],
    [75001558608301906 / 10 ^ 29, -48726813621044346 / 10 ^ 26, 48651812062436036 / 10 ^ 26],
    [0, 0, 0],
    [0, 0, 0],
    [0, 0, 0]]) &&
      eqVec 0 s.ee (vec [75001558608301906 / 10 ^ 29, -48726813621044346 / 10 ^ 26, 48651812062436036 / 10 ^ 26]) &&
      eqVec 0 s.e.ewt (vec [99990000999900003 / 10 ^ 13, 1 * 10 ^ 6, 1 * 10 ^ 6]) &&
      decide (s.c.kk = 1) &&
      decide (s.c.kused = 1) &&
      decide (s.c.knew = 1) &&
      decide (s.c.phase = 0) &&
      eqNum 0 s.c.hh (.of (2164955286048077 / 10 ^ 20)) &&
      eqNum 0 s.c.hused (.of (2164955286048077 / 10 ^ 20)) &&
      eqNum 0 s.c.rr (.of (0)) &&
      decide (s.cnt.nst = 1)

/-- Preconditions of /repo/src/tests/complete_step.rs, `test2`. -/
def completeStep2Before : State Nat 3 0 B64 := { blank with
  h.phi := tab [[99999826803802172 / 10 ^ 17, 17295310279504897 / 10 ^ 22, 24309503863111873 / 10 ^ 25],
    [-17319612278663124 / 10 ^ 22, 17280723633349389 / 10 ^ 22, 38888645313736536 / 10 ^ 25],
    [2251411465187169 / 10 ^ 27, -43759938466525865 / 10 ^ 25, 43737424351873994 / 10 ^ 25],
    [0, 0, 0],
    [0, 0, 0],
    [0, 0, 0]],
  ee := vec [-42122294839452673 / 10 ^ 29, -24605442771223734 / 10 ^ 25, 24609655000707684 / 10 ^ 25],
  e.ewt := vec [99990174161763662 / 10 ^ 13, 99982707680480811 / 10 ^ 11, 99999975690502045 / 10 ^ 11],
  c.kk := 2,
  c.kused := 1,
  c.knew := 2,
  c.phase := 0,
  c.hh := .of (4329910572096154 / 10 ^ 20),
  c.hused := .of (2164955286048077 / 10 ^ 20),
  c.rr := .of (0),
  cnt.nst := 2 }

/-- /repo/src/tests/complete_step.rs, `test2`: the postconditions, with equality of binary64 numbers. -/
def completeStep2Check : Bool :=
  match completeStep dummyCfg completeStep2Before (.of (1339349356604325 / 10 ^ 18)) (.of (3720519687081918 / 10 ^ 18)) with
  | none => false
  | some s =>
      eqTab 0 s.h.phi (tab [[99999653607862404 / 10 ^ 17, 34507668531616537 / 10 ^ 22, 13154522852943008 / 10 ^ 24],
    [-17319593976777956 / 10 ^ 22, 1721235825211164 / 10 ^ 21, 1072357246663182 / 10 ^ 23],
    [18301885167926423 / 10 ^ 28, -68365381237749594 / 10 ^ 25, 68347079352581675 / 10 ^ 25],
    [-42122294839452673 / 10 ^ 29, -24605442771223734 / 10 ^ 25, 24609655000707684 / 10 ^ 25],
    [0, 0, 0],
    [0, 0, 0]]) &&
      eqVec 0 s.ee (vec [-42122294839452673 / 10 ^ 29, -24605442771223734 / 10 ^ 25, 24609655000707684 / 10 ^ 25]) &&
      eqVec 0 s.e.ewt (vec [99990174161763662 / 10 ^ 13, 99982707680480811 / 10 ^ 11, 99999975690502045 / 10 ^ 11]) &&
      decide (s.c.kk = 3) &&
      decide (s.c.kused = 2) &&
      decide (s.c.knew = 2) &&
      decide (s.c.phase = 0) &&
      eqNum 0 s.c.hh (.of (86598211441923079 / 10 ^ 21)) &&
      eqNum 0 s.c.hused (.of (4329910572096154 / 10 ^ 20)) &&
      eqNum 0 s.c.rr (.of (0)) &&
      decide (s.cnt.nst = 3)

/-- Preconditions of /repo/src/tests/complete_step.rs, `test3`. -/
def completeStep3Before : State Nat 3 0 B64 := { blank with
  h.phi := tab [[99989651723441231 / 10 ^ 17, 36526684773526134 / 10 ^ 21, 66956080814055887 / 10 ^ 21],
    [-13744883185162313 / 10 ^ 21, 16198423621611769 / 10 ^ 23, 13582898948830698 / 10 ^ 21],
    [18985246772161757 / 10 ^ 25, -31828827656675421 / 10 ^ 23, 31638975173052525 / 10 ^ 23],
    [60782494622797157 / 10 ^ 27, 36508292328524681 / 10 ^ 23, -36514370600191418 / 10 ^ 23],
    [-13875550771817554 / 10 ^ 26, 13559268269012917 / 10 ^ 22, -13557880688400603 / 10 ^ 22],
    [-11465196356066767 / 10 ^ 26, 20021935974335382 / 10 ^ 23, -20010470777979317 / 10 ^ 23]],
  ee := vec [-30358000609489579 / 10 ^ 27, -20478050395116282 / 10 ^ 23, 20481086265121282 / 10 ^ 23],
  e.ewt := vec [10000034827777174 / 10 ^ 12, 99636062495315843 / 10 ^ 11, 99334892491071229 / 10 ^ 11],
  c.kk := 3,
  c.kused := 2,
  c.knew := 2,
  c.phase := 1,
  c.hh := .of (34384304814216195 / 10 ^ 20),
  c.hused := .of (34384304814216195 / 10 ^ 20),
  c.rr := .of (17379509697128959 / 10 ^ 16),
  cnt.nst := 12 }

/-- /repo/src/tests/complete_step.rs, `test3`: the postconditions, with equality of binary64 numbers. -/
def completeStep3Check : Bool :=
  match completeStep dummyCfg completeStep3Before (.of (4158869255496026 / 10 ^ 17)) (.of (434084688121079 / 10 ^ 16)) with
  | none => false
  | some s =>
      eqTab 0 s.h.phi (tab [[99988277428017636 / 10 ^ 17, 36530683152509582 / 10 ^ 21, 80695036671266405 / 10 ^ 21],
    [-13742954235991083 / 10 ^ 21, 39983789834474729 / 10 ^ 25, 13738955857210521 / 10 ^ 21],
    [19289491712294831 / 10 ^ 25, -15798585723267022 / 10 ^ 23, 15605690837982388 / 10 ^ 23],
    [30424494013307578 / 10 ^ 27, 160302419334084 / 10 ^ 21, -16033284335070136 / 10 ^ 23],
    [-30358000609489579 / 10 ^ 27, -20478050395116282 / 10 ^ 23, 20481086265121282 / 10 ^ 23],
    [-11465196356066767 / 10 ^ 26, 20021935974335382 / 10 ^ 23, -20010470777979317 / 10 ^ 23]]) &&
      eqVec 0 s.ee (vec [-30358000609489579 / 10 ^ 27, -20478050395116282 / 10 ^ 23, 20481086265121282 / 10 ^ 23]) &&
      eqVec 0 s.e.ewt (vec [10000034827777174 / 10 ^ 12, 99636062495315843 / 10 ^ 11, 99334892491071229 / 10 ^ 11]) &&
      decide (s.c.kk = 2) &&
      decide (s.c.kused = 3) &&
      decide (s.c.knew = 2) &&
      decide (s.c.phase = 1) &&
      eqNum 0 s.c.hh (.of (6876860962843239 / 10 ^ 19)) &&
      eqNum 0 s.c.hused (.of (34384304814216195 / 10 ^ 20)) &&
      eqNum 0 s.c.rr (.of (22575213239991561 / 10 ^ 16)) &&
      decide (s.cnt.nst = 13)

/-- Preconditions of /repo/src/tests/get_solution.rs, `test_get_solution`. -/
def getSolution1Before : State Nat 3 0 B64 := { blank with
  c.hh := .of (8578705921885694 / 10 ^ 7),
  e.tn := .of (362311833624244 / 10 ^ 5),
  c.kused := 4,
  c.hused := .of (4289352960942847 / 10 ^ 7),
  h.phi := tab [[5716499633245077 / 10 ^ 22, 2286601144610028 / 10 ^ 27, 9999994283477499 / 10 ^ 16],
    [-7779233860067279 / 10 ^ 23, -3111697299545603 / 10 ^ 28, 7779264957586927 / 10 ^ 23],
    [2339417551980491 / 10 ^ 23, 935768837422748 / 10 ^ 28, -233942692332846 / 10 ^ 22],
    [-9503346432581604 / 10 ^ 24, -3801349575270522 / 10 ^ 29, 9503383895634436 / 10 ^ 24],
    [7768373161310588 / 10 ^ 24, 3107357755532867 / 10 ^ 29, -7768407422476745 / 10 ^ 24],
    [-2242367216194777 / 10 ^ 25, -8970915966733762 / 10 ^ 31, 2242247401239887 / 10 ^ 25]],
  h.psi := arr [4289352960942847 / 10 ^ 7, 8578705921885694 / 10 ^ 7, 1072338240235712 / 10 ^ 6, 1286805888282854 / 10 ^ 6, 1501273536329997 / 10 ^ 6, 260205824876316 / 10 ^ 7] }

/-- /repo/src/tests/get_solution.rs, `test_get_solution`. -/
def getSolution1Check : Bool :=
  match getSolution getSolution1Before (.of (362311833624244 / 10 ^ 5)) with
  | .ret s (.ok ()) =>
      eqVec tol s.m.yy (vec [5716499633245077 / 10 ^ 22, 2286601144610028 / 10 ^ 27, 9999994283477499 / 10 ^ 16]) &&
      eqVec tol s.m.yp (vec [-1569167478317552 / 10 ^ 31, -6276676917262037 / 10 ^ 37, 1569173718962504 / 10 ^ 31])
  | _ => false

/-- Preconditions of /repo/src/tests/predict.rs, `test1`. -/
def predict1Before : State Nat 3 0 B64 := { blank with
  h.phi := tab [[10570152037228958 / 10 ^ 23, 42280612558303261 / 10 ^ 29, 9999998942980568 / 10 ^ 16],
    [-33082196412696304 / 10 ^ 24, -1323288182871042 / 10 ^ 28, 33082328676061534 / 10 ^ 24],
    [18675273859330434 / 10 ^ 24, 74701128706323864 / 10 ^ 30, -18675348801050254 / 10 ^ 24],
    [-19956501813542136 / 10 ^ 24, -7982605780305829 / 10 ^ 29, 19956580862443821 / 10 ^ 24],
    [12851942479612096 / 10 ^ 25, 51407743965993651 / 10 ^ 31, -12851948368212051 / 10 ^ 25],
    [-22423672161947766 / 10 ^ 26, -89709159667337618 / 10 ^ 32, 22422474012398869 / 10 ^ 26]],
  h.gamma := arr [0, 26496925453439462 / 10 ^ 26, 38862188959925182 / 10 ^ 26, 80997073172076138 / 10 ^ 26, 3043712110995361 / 10 ^ 24, 31823098347208659 / 10 ^ 23],
  e.yypredict := vec [12565802218583172 / 10 ^ 23, 50263218338609083 / 10 ^ 29, 99999987434147597 / 10 ^ 17],
  e.yppredict := vec [15848602690328082 / 10 ^ 34, 63394566628399208 / 10 ^ 40, -15848663595269871 / 10 ^ 34],
  c.kk := 2 }

/-- /repo/src/tests/predict.rs, `test1`. -/
def predict1Check : Bool :=
  match predict predict1Before with
  | none => false
  | some s =>
      decide (s.c.kk = 2) &&
      eqTab tol s.h.phi (tab [[10570152037228958 / 10 ^ 23, 42280612558303261 / 10 ^ 29, 9999998942980568 / 10 ^ 16],
    [-33082196412696304 / 10 ^ 24, -1323288182871042 / 10 ^ 28, 33082328676061534 / 10 ^ 24],
    [18675273859330434 / 10 ^ 24, 74701128706323864 / 10 ^ 30, -18675348801050254 / 10 ^ 24],
    [-19956501813542136 / 10 ^ 24, -7982605780305829 / 10 ^ 29, 19956580862443821 / 10 ^ 24],
    [12851942479612096 / 10 ^ 25, 51407743965993651 / 10 ^ 31, -12851948368212051 / 10 ^ 25],
    [-22423672161947766 / 10 ^ 26, -89709159667337618 / 10 ^ 32, 22422474012398869 / 10 ^ 26]]) &&
      eqVec tol s.e.yypredict (vec [91294597818923714 / 10 ^ 24, 3651784360022523 / 10 ^ 28, 99999990870503663 / 10 ^ 17]) &&
      eqVec tol s.e.yppredict (vec [-15081447058360581 / 10 ^ 34, -60325745419028739 / 10 ^ 40, 15081506275685795 / 10 ^ 34])

/-- Preconditions of /repo/src/tests/restore.rs, `test_restore1`. -/
def restore1Before : State Nat 3 0 B64 := { blank with
  e.tn := .of (19051606517223076 / 10 ^ 19),
  c.ns := 1,
  c.kk := 2,
  c.hh := .of (69278569153538464 / 10 ^ 20),
  h.phi := tab [[99995150785077214 / 10 ^ 17, 32239271870584518 / 10 ^ 21, 16252877357362511 / 10 ^ 21],
    [-27707635503825098 / 10 ^ 21, 97313256739903617 / 10 ^ 22, 17976309829765466 / 10 ^ 21],
    [34935651154088256 / 10 ^ 25, -10880124117276491 / 10 ^ 21, 10876630551341415 / 10 ^ 21],
    [56694097544747856 / 10 ^ 26, 2137875888149685 / 10 ^ 23, -21945701078189652 / 10 ^ 24],
    [-13875550771817554 / 10 ^ 26, 13559268269012917 / 10 ^ 22, -13557880688400603 / 10 ^ 22],
    [-11465196356066767 / 10 ^ 26, 20021935974335382 / 10 ^ 23, -20010470777979317 / 10 ^ 23]],
  h.psi := arr [69278569153538464 / 10 ^ 20, 1039178537303077 / 10 ^ 18, 13855713830707693 / 10 ^ 19, 77938390297730776 / 10 ^ 20, 34639284576769232 / 10 ^ 20, 0],
  h.beta := arr [1, 2, 3, 48000000000000007 / 10 ^ 16, 15, 0] }

/-- /repo/src/tests/restore.rs, `test_restore1` (without `ida_cvals`, which is scratch space). -/
def restore1Check : Bool :=
  match restore restore1Before (.of (1212374960186923 / 10 ^ 18)) with
  | none => false
  | some s =>
      eqNum tol s.e.tn (.of (1212374960186923 / 10 ^ 18)) &&
      decide (s.c.ns = 1) &&
      decide (s.c.kk = 2) &&
      eqTab tol s.h.phi (tab [[99995150785077214 / 10 ^ 17, 32239271870584518 / 10 ^ 21, 16252877357362511 / 10 ^ 21],
    [-13853817751912549 / 10 ^ 21, 48656628369951808 / 10 ^ 22, 89881549148827332 / 10 ^ 22],
    [11645217051362752 / 10 ^ 25, -36267080390921635 / 10 ^ 22, 36255435171138049 / 10 ^ 22],
    [56694097544747856 / 10 ^ 26, 2137875888149685 / 10 ^ 23, -21945701078189652 / 10 ^ 24],
    [-13875550771817554 / 10 ^ 26, 13559268269012917 / 10 ^ 22, -13557880688400603 / 10 ^ 22],
    [-11465196356066767 / 10 ^ 26, 20021935974335382 / 10 ^ 23, -20010470777979317 / 10 ^ 23]]) &&
      eqArr tol s.h.psi (arr [34639284576769237 / 10 ^ 20, 69278569153538464 / 10 ^ 20, 13855713830707693 / 10 ^ 19, 77938390297730776 / 10 ^ 20, 34639284576769232 / 10 ^ 20, 0]) &&
      eqArr tol s.h.beta (arr [1, 2, 3, 48000000000000007 / 10 ^ 16, 15, 0])

/-- Preconditions of /repo/src/tests/set_coeffs.rs, `test1`. -/
def setCoeffs1Before : State Nat 3 0 B64 := { blank with
  h.phi := tab [[41295003522440181 / 10 ^ 23, 16518008147114031 / 10 ^ 28, 99999958704831304 / 10 ^ 17],
    [-64049734044789205 / 10 ^ 24, -25619916159829551 / 10 ^ 29, 64049990326726996 / 10 ^ 24],
    [21135440604995772 / 10 ^ 24, 84541889872000439 / 10 ^ 30, -2113552519772648 / 10 ^ 23],
    [-22351400807868742 / 10 ^ 24, -89405756031743853 / 10 ^ 30, 22351489636470618 / 10 ^ 24],
    [18323105973439385 / 10 ^ 24, 73292641194159994 / 10 ^ 30, -18323176512520801 / 10 ^ 24],
    [-22423672161947766 / 10 ^ 26, -89709159667337618 / 10 ^ 32, 22422474012398869 / 10 ^ 26]],
  h.psi := arr [66874844417638421 / 10 ^ 8, 14118022710390334 / 10 ^ 7, 18407375671333179 / 10 ^ 7, 18153920670983608 / 10 ^ 7, 21446764804714236 / 10 ^ 7, 26020582487631597 / 10 ^ 9],
  h.alpha := arr [1, 47368421052631576 / 10 ^ 17, 3633046101285709 / 10 ^ 16, 40930763129879277 / 10 ^ 17, 39999999999999997 / 10 ^ 17, 36363636363636365 / 10 ^ 17],
  h.beta := arr [1, 90000000000000002 / 10 ^ 17, 10841585634594841 / 10 ^ 16, 35332089881864119 / 10 ^ 16, 71999999999999993 / 10 ^ 16, 10285714285714285 / 10 ^ 15],
  h.sigma := arr [1, 47368421052631576 / 10 ^ 17, 34418331485864612 / 10 ^ 17, 72268199139687761 / 10 ^ 17, 14222222222222223 / 10 ^ 16, 25858585858585861 / 10 ^ 16],
  h.gamma := arr [0, 14953305816383288 / 10 ^ 25, 22036450676775371 / 10 ^ 25, 28236868704168917 / 10 ^ 25, 3043712110995361 / 10 ^ 24, 31823098347208659 / 10 ^ 23],
  c.kk := 2,
  c.kused := 2,
  c.ns := 1,
  c.hh := .of (66874844417638421 / 10 ^ 8),
  c.hused := .of (66874844417638421 / 10 ^ 8),
  e.cj := .of (2242995872457493 / 10 ^ 24),
  c.cjlast := .of (24672954597032423 / 10 ^ 25) }

/-- /repo/src/tests/set_coeffs.rs, `test1`. -/
def setCoeffs1Check : Bool :=
  match setCoeffs setCoeffs1Before with
  | none => false
  | some (s, ck) =>
      eqNum tol ck (.of (3214285714285713969 / 10 ^ 19)) &&
      eqTab tol s.h.phi (tab [[41295003522440181 / 10 ^ 23, 16518008147114031 / 10 ^ 28, 99999958704831304 / 10 ^ 17],
    [-64049734044789205 / 10 ^ 24, -25619916159829551 / 10 ^ 29, 64049990326726996 / 10 ^ 24],
    [20023048994206519 / 10 ^ 24, 80092316720842518 / 10 ^ 30, -20023129134688242 / 10 ^ 24],
    [-22351400807868742 / 10 ^ 24, -89405756031743853 / 10 ^ 30, 22351489636470618 / 10 ^ 24],
    [18323105973439385 / 10 ^ 24, 73292641194159994 / 10 ^ 30, -18323176512520801 / 10 ^ 24],
    [-22423672161947766 / 10 ^ 26, -89709159667337618 / 10 ^ 32, 22422474012398869 / 10 ^ 26]]) &&
      eqArr tol s.h.psi (arr [66874844417638421 / 10 ^ 8, 13374968883527684 / 10 ^ 7, 20805507152154176 / 10 ^ 7, 18153920670983608 / 10 ^ 7, 21446764804714236 / 10 ^ 7, 26020582487631597 / 10 ^ 9]) &&
      eqArr tol s.h.alpha (arr [1, 5 / 10 ^ 1, 3214285714285714 / 10 ^ 16, 40930763129879277 / 10 ^ 17, 39999999999999997 / 10 ^ 17, 36363636363636365 / 10 ^ 17]) &&
      eqArr tol s.h.beta (arr [1, 1, 94736842105263153 / 10 ^ 17, 35332089881864119 / 10 ^ 16, 71999999999999993 / 10 ^ 16, 10285714285714285 / 10 ^ 15]) &&
      eqArr tol s.h.sigma (arr [1, 5 / 10 ^ 1, 3214285714285714 / 10 ^ 16, 72268199139687761 / 10 ^ 17, 14222222222222223 / 10 ^ 16, 25858585858585861 / 10 ^ 16]) &&
      eqArr tol s.h.gamma (arr [0, 14953305816383288 / 10 ^ 25, 2242995872457493 / 10 ^ 24, 28236868704168917 / 10 ^ 25, 3043712110995361 / 10 ^ 24, 31823098347208659 / 10 ^ 23]) &&
      decide (s.c.kk = 2) &&
      decide (s.c.kused = 2) &&
      decide (s.c.ns = 2) &&
      eqNum tol s.c.hh (.of (66874844417638421 / 10 ^ 8)) &&
      eqNum tol s.c.hused (.of (66874844417638421 / 10 ^ 8)) &&
      eqNum tol s.e.cj (.of (2242995872457493 / 10 ^ 24)) &&
      eqNum tol s.c.cjlast (.of (2242995872457493 / 10 ^ 24))

/-- Preconditions of /repo/src/tests/set_coeffs.rs, `test2`. -/
def setCoeffs2Before : State Nat 3 0 B64 := { blank with
  h.phi := tab [[99992400889930733 / 10 ^ 17, 35884428024527148 / 10 ^ 21, 40106672668125017 / 10 ^ 21],
    [-13748619452022122 / 10 ^ 21, 11636437126348729 / 10 ^ 22, 12584975739367733 / 10 ^ 21],
    [17125607629565644 / 10 ^ 25, -13178687286728842 / 10 ^ 22, 13161561679729596 / 10 ^ 22],
    [21033954646845001 / 10 ^ 26, 10217905523752639 / 10 ^ 22, -10220008918107099 / 10 ^ 22],
    [-13875550771817554 / 10 ^ 26, 13559268269012917 / 10 ^ 22, -13557880688400603 / 10 ^ 22],
    [-11465196356066767 / 10 ^ 26, 20021935974335382 / 10 ^ 23, -20010470777979317 / 10 ^ 23]],
  h.psi := arr [34384304814216195 / 10 ^ 20, 6876860962843239 / 10 ^ 19, 10315291444264857 / 10 ^ 19, 77938390297730776 / 10 ^ 20, 34639284576769232 / 10 ^ 20, 0],
  h.alpha := arr [1, 5 / 10 ^ 1, 33333333333333337 / 10 ^ 17, 44444444444444442 / 10 ^ 17, 5 / 10 ^ 1, 0],
  h.beta := arr [1, 1, 1, 48000000000000007 / 10 ^ 16, 15, 0],
  h.sigma := arr [1, 5 / 10 ^ 1, 33333333333333337 / 10 ^ 17, 88888888888888884 / 10 ^ 17, 24380952380952383 / 10 ^ 16, 0],
  h.gamma := arr [0, 29083036734439079 / 10 ^ 13, 43624555101658616 / 10 ^ 13, 62549405772650898 / 10 ^ 13, 16001650180080363 / 10 ^ 12, 0],
  c.kk := 2,
  c.kused := 2,
  c.ns := 2,
  c.hh := .of (34384304814216195 / 10 ^ 20),
  c.hused := .of (34384304814216195 / 10 ^ 20),
  e.cj := .of (43624555101658616 / 10 ^ 13),
  c.cjlast := .of (43624555101658616 / 10 ^ 13) }

/-- /repo/src/tests/set_coeffs.rs, `test2`. -/
def setCoeffs2Check : Bool :=
  match setCoeffs setCoeffs2Before with
  | none => false
  | some (s, ck) =>
      eqNum tol ck (.of (3333333333333334814 / 10 ^ 19)) &&
      eqTab tol s.h.phi (tab [[99992400889930733 / 10 ^ 17, 35884428024527148 / 10 ^ 21, 40106672668125017 / 10 ^ 21],
    [-13748619452022122 / 10 ^ 21, 11636437126348729 / 10 ^ 22, 12584975739367733 / 10 ^ 21],
    [17125607629565644 / 10 ^ 25, -13178687286728842 / 10 ^ 22, 13161561679729596 / 10 ^ 22],
    [21033954646845001 / 10 ^ 26, 10217905523752639 / 10 ^ 22, -10220008918107099 / 10 ^ 22],
    [-13875550771817554 / 10 ^ 26, 13559268269012917 / 10 ^ 22, -13557880688400603 / 10 ^ 22],
    [-11465196356066767 / 10 ^ 26, 20021935974335382 / 10 ^ 23, -20010470777979317 / 10 ^ 23]]) &&
      eqArr tol s.h.psi (arr [34384304814216195 / 10 ^ 20, 6876860962843239 / 10 ^ 19, 10315291444264857 / 10 ^ 19, 77938390297730776 / 10 ^ 20, 34639284576769232 / 10 ^ 20, 0]) &&
      eqArr tol s.h.alpha (arr [1, 5 / 10 ^ 1, 33333333333333337 / 10 ^ 17, 44444444444444442 / 10 ^ 17, 5 / 10 ^ 1, 0]) &&
      eqArr tol s.h.beta (arr [1, 1, 1, 48000000000000007 / 10 ^ 16, 15, 0]) &&
      eqArr tol s.h.sigma (arr [1, 5 / 10 ^ 1, 33333333333333337 / 10 ^ 17, 88888888888888884 / 10 ^ 17, 24380952380952383 / 10 ^ 16, 0]) &&
      eqArr tol s.h.gamma (arr [0, 29083036734439079 / 10 ^ 13, 43624555101658616 / 10 ^ 13, 62549405772650898 / 10 ^ 13, 16001650180080363 / 10 ^ 12, 0]) &&
      decide (s.c.kk = 2) &&
      decide (s.c.kused = 2) &&
      decide (s.c.ns = 3) &&
      eqNum tol s.c.hh (.of (34384304814216195 / 10 ^ 20)) &&
      eqNum tol s.c.hused (.of (34384304814216195 / 10 ^ 20)) &&
      eqNum tol s.e.cj (.of (43624555101658616 / 10 ^ 13)) &&
      eqNum tol s.c.cjlast (.of (43624555101658616 / 10 ^ 13))

/-- Preconditions of /repo/src/tests/test_error.rs, `test1`. -/
def testError1Before : State Nat 3 0 B64 := { blank with
  c.kk := 5,
  h.phi := tab [[3634565317158998 / 10 ^ 20, 1453878335134203 / 10 ^ 25, 9999636542014404 / 10 ^ 16],
    [-6530333550677049 / 10 ^ 21, -2612329458968465 / 10 ^ 26, 6530359673556191 / 10 ^ 21],
    [1946442728026142 / 10 ^ 21, 7786687275994346 / 10 ^ 27, -1946450515496441 / 10 ^ 21],
    [-8097632208221231 / 10 ^ 22, -3239585549038764 / 10 ^ 27, 8097664556005615 / 10 ^ 22],
    [3718130977075839 / 10 ^ 22, 1487573462300438 / 10 ^ 27, -371814615793545 / 10 ^ 21],
    [-324421895454213 / 10 ^ 21, -1297915245220823 / 10 ^ 27, 3244230624265827 / 10 ^ 22]],
  ee := vec [265787533317467 / 10 ^ 21, 1063275845801634 / 10 ^ 27, -2657884288386138 / 10 ^ 22],
  e.ewt := vec [7334300556993243 / 10 ^ 8, 999999985461217 / 10 ^ 9, 9901346408259429 / 10 ^ 12],
  h.sigma := arr [1, 6666666666666666 / 10 ^ 16, 6666666666666666 / 10 ^ 16, 888888888888889 / 10 ^ 15, 1422222222222222 / 10 ^ 15, 2585858585858586 / 10 ^ 15] }

/-- /repo/src/tests/test_error.rs, `test1`. -/
def testError1Check : Bool :=
  match testError dummyCfg testError1Before (.of (1091414141414142 / 10 ^ 15)) with
  | none => false
  | some (s, r) =>
      decide (s.c.knew = 4) &&
      eqNum tol r.errk (.of (2910297975314245 / 10 ^ 14)) &&
      eqNum tol r.errkm1 (.of (3531162835377502 / 10 ^ 15)) &&
      decide (r.passed = false)

/-- Preconditions of /repo/src/tests/test_error.rs, `test2`. -/
def testError2Before : State Nat 3 0 B64 := { blank with
  c.kk := 4,
  h.phi := tab [[3051237735052657 / 10 ^ 20, 1220531905117091 / 10 ^ 25, 9999694875005963 / 10 ^ 16],
    [-2513114849098281 / 10 ^ 21, -1005308974226734 / 10 ^ 26, 2513124902721765 / 10 ^ 21],
    [4500284453718991 / 10 ^ 22, 1800291970640913 / 10 ^ 27, -4500302448499092 / 10 ^ 22],
    [-1366709389821433 / 10 ^ 22, -5467603693902342 / 10 ^ 28, 1366714866794709 / 10 ^ 22],
    [7278821769100639 / 10 ^ 23, 2911981566628798 / 10 ^ 28, -7278850816613011 / 10 ^ 23],
    [-8304741244343501 / 10 ^ 24, -3324587131187576 / 10 ^ 29, 8304772990651073 / 10 ^ 24]],
  ee := vec [-2981302228744271 / 10 ^ 23, -1192712676406388 / 10 ^ 28, 2981313872620108 / 10 ^ 23],
  e.ewt := vec [7662108531777237 / 10 ^ 8, 9999999877946811 / 10 ^ 10, 9901289220872719 / 10 ^ 12],
  h.sigma := arr [1, 5 / 10 ^ 1, 3214285714285715 / 10 ^ 16, 2396514200444849 / 10 ^ 16, 1941955227762807 / 10 ^ 16, 2585858585858586 / 10 ^ 15] }

/-- /repo/src/tests/test_error.rs, `test2`. -/
def testError2Check : Bool :=
  match testError dummyCfg testError2Before (.of (2025812352167927 / 10 ^ 16)) with
  | none => false
  | some (s, r) =>
      decide (s.c.knew = 4) &&
      eqNum tol r.errk (.of (2561137489433976 / 10 ^ 16)) &&
      eqNum tol r.errkm1 (.of (455601916633899 / 10 ^ 15)) &&
      decide (r.passed = true)

example : completeStep1Check = true := by decide +kernel

example : completeStep2Check = true := by decide +kernel

example : completeStep3Check = true := by decide +kernel

example : getSolution1Check = true := by decide +kernel

example : predict1Check = true := by decide +kernel

example : restore1Check = true := by decide +kernel

example : setCoeffs1Check = true := by decide +kernel

example : setCoeffs2Check = true := by decide +kernel

example : testError1Check = true := by decide +kernel

example : testError2Check = true := by decide +kernel

end Verif.Conform
