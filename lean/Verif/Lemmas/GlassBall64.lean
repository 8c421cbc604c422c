import Verif.Lemmas.Dyadic64

/-!
# A ray and a glass ball, computed with doubles

A glass ball of diameter 25 and index 1.5 at `(0, 0, 1000)`, and a ray that starts at `(3.6, 0, 0)` along the z axis.
`dy m e` is the double `m * 2^e`.  The first part lists every rounded operation of the run, the second part the results of
the functions.
-/

namespace Optics
open V3

namespace GlassBall64

/-! ## Operations -/

theorem dy_eqb {m e m' e' : ℤ} (h : (m : ℝ) * 2 ^ e ≠ m' * 2 ^ e') : PyNum.eqb (dy m e) (dy m' e') = false := by
  show decide ((m : ℝ) * 2 ^ e = m' * 2 ^ e') = false
  exact decide_eq_false h

@[local simp] theorem op0 : (0.0 : D64) = dy 0 0 :=
  dy_lit (by dyE)
@[local simp] theorem op1 : (1.0 : D64) = dy 4503599627370496 (-52) :=
  dy_lit (by dyE)
@[local simp] theorem op2 : (1.5 : D64) = dy 6755399441055744 (-52) :=
  dy_lit (by dyE)
@[local simp] theorem op3 : (2.0 : D64) = dy 4503599627370496 (-51) :=
  dy_lit (by dyE)
@[local simp] theorem op4 : (3.6 : D64) = dy 8106479329266893 (-51) :=
  dy_lit (by dyN)
@[local simp] theorem op5 : (25.0 : D64) = dy 7036874417766400 (-48) :=
  dy_lit (by dyE)
@[local simp] theorem op6 : (1000.0 : D64) = dy 8796093022208000 (-43) :=
  dy_lit (by dyE)
@[local simp] theorem op7 : (1050.0 : D64) = dy 4617948836659200 (-42) :=
  dy_lit (by dyE)
@[local simp] theorem op8 : (1e-12 : D64) = dy 4951760157141521 (-92) :=
  dy_lit (by dyN)
@[local simp] theorem op9 : dy 7036874417766400 (-48) / dy 4503599627370496 (-51) = dy 7036874417766400 (-49) :=
  dy_div (by norm_num) (by dyE)
@[local simp] theorem op10 : dy 0 0 * dy 0 0 = dy 0 0 :=
  dy_mul (by dyE)
@[local simp] theorem op11 : dy 0 0 + dy 0 0 = dy 0 0 :=
  dy_add (by dyE)
@[local simp] theorem op12 : dy 4503599627370496 (-52) * dy 4503599627370496 (-52) = dy 4503599627370496 (-52) :=
  dy_mul (by dyE)
@[local simp] theorem op13 : dy 0 0 + dy 4503599627370496 (-52) = dy 4503599627370496 (-52) :=
  dy_add (by dyE)
@[local simp] theorem op14 : PyNum.sqrt (dy 4503599627370496 (-52)) = dy 4503599627370496 (-52) :=
  dy_sqrtE (by norm_num) (by norm_num) (by norm_num) (by norm_num) (by norm_num) (by norm_num)
@[local simp] theorem op15 : dy 0 0 / dy 4503599627370496 (-52) = dy 0 0 :=
  dy_div (by norm_num) (by dyE)
@[local simp] theorem op16 : dy 4503599627370496 (-52) / dy 4503599627370496 (-52) = dy 4503599627370496 (-52) :=
  dy_div (by norm_num) (by dyE)
@[local simp] theorem op17 : (dy 0 0 < dy 4617948836659200 (-42)) = True :=
  by rw [dy_lt]; norm_num
@[local simp] theorem op18 : dy 0 0 - dy 8106479329266893 (-51) = dy (-8106479329266893) (-51) :=
  dy_sub (by dyE)
@[local simp] theorem op19 : dy 0 0 - dy 0 0 = dy 0 0 :=
  dy_sub (by dyE)
@[local simp] theorem op20 : dy 8796093022208000 (-43) - dy 0 0 = dy 8796093022208000 (-43) :=
  dy_sub (by dyE)
@[local simp] theorem op21 : dy 0 0 * dy (-8106479329266893) (-51) = dy 0 0 :=
  dy_mul (by dyE)
@[local simp] theorem op22 : dy 4503599627370496 (-52) * dy 8796093022208000 (-43) = dy 8796093022208000 (-43) :=
  dy_mul (by dyE)
@[local simp] theorem op23 : dy 0 0 + dy 8796093022208000 (-43) = dy 8796093022208000 (-43) :=
  dy_add (by dyE)
@[local simp] theorem op24 : dy (-8106479329266893) (-51) * dy (-8106479329266893) (-51) = dy 7295831396340204 (-49) :=
  dy_mul (by dyN)
@[local simp] theorem op25 : dy 7295831396340204 (-49) + dy 0 0 = dy 7295831396340204 (-49) :=
  dy_add (by dyE)
@[local simp] theorem op26 : dy 8796093022208000 (-43) * dy 8796093022208000 (-43) = dy 8589934592000000 (-33) :=
  dy_mul (by dyE)
@[local simp] theorem op27 : dy 7295831396340204 (-49) + dy 8589934592000000 (-33) = dy 8590045917552312 (-33) :=
  dy_add (by dyN)
@[local simp] theorem op28 : dy 7036874417766400 (-49) * dy 7036874417766400 (-49) = dy 5497558138880000 (-45) :=
  dy_mul (by dyE)
@[local simp] theorem op29 : dy 8590045917552312 (-33) - dy 5497558138880000 (-45) = dy 8588703740272312 (-33) :=
  dy_sub (by dyE)
@[local simp] theorem op30 : dy 8589934592000000 (-33) - dy 8588703740272312 (-33) = dy 5041568676610048 (-45) :=
  dy_sub (by dyE)
@[local simp] theorem op31 : (dy 0 0 < dy 5041568676610048 (-45)) = True :=
  by rw [dy_lt]; norm_num
@[local simp] theorem op32 : PyNum.sqrt (dy 5041568676610048 (-45)) = dy 6738724925880827 (-49) :=
  dy_sqrtN (by norm_num) (by norm_num) (by norm_num) (by norm_num) (by norm_num) (by norm_num) (by norm_num) (by norm_num)
@[local simp] theorem op33 : dy 8796093022208000 (-43) - dy 6738724925880827 (-49) = dy 8690800445241112 (-43) :=
  dy_sub (by dyN)
@[local simp] theorem op34 : dy 8796093022208000 (-43) + dy 6738724925880827 (-49) = dy 8901385599174888 (-43) :=
  dy_add (by dyN)
@[local simp] theorem op35 : dy 8690800445241112 (-43) * dy 0 0 = dy 0 0 :=
  dy_mul (by dyE)
@[local simp] theorem op36 : dy 8690800445241112 (-43) * dy 4503599627370496 (-52) = dy 8690800445241112 (-43) :=
  dy_mul (by dyE)
@[local simp] theorem op37 : dy 8106479329266893 (-51) + dy 0 0 = dy 8106479329266893 (-51) :=
  dy_add (by dyE)
@[local simp] theorem op38 : dy 0 0 + dy 8690800445241112 (-43) = dy 8690800445241112 (-43) :=
  dy_add (by dyE)
@[local simp] theorem op39 : dy 8901385599174888 (-43) * dy 0 0 = dy 0 0 :=
  dy_mul (by dyE)
@[local simp] theorem op40 : dy 8901385599174888 (-43) * dy 4503599627370496 (-52) = dy 8901385599174888 (-43) :=
  dy_mul (by dyE)
@[local simp] theorem op41 : dy 0 0 + dy 8901385599174888 (-43) = dy 8901385599174888 (-43) :=
  dy_add (by dyE)
@[local simp] theorem op42 : dy 8796093022208000 (-43) - dy 8690800445241112 (-43) = dy 6738724925880832 (-49) :=
  dy_sub (by dyE)
@[local simp] theorem op43 : dy 6738724925880832 (-49) * dy 6738724925880832 (-49) = dy 5041568676610056 (-45) :=
  dy_mul (by dyN)
@[local simp] theorem op44 : dy 7295831396340204 (-49) + dy 5041568676610056 (-45) = dy 5497558138881319 (-45) :=
  dy_add (by dyN)
@[local simp] theorem op45 : PyNum.sqrt (dy 5497558138881319 (-45)) = dy 7036874417767244 (-49) :=
  dy_sqrtN (by norm_num) (by norm_num) (by norm_num) (by norm_num) (by norm_num) (by norm_num) (by norm_num) (by norm_num)
@[local simp] theorem op46 : dy (-8106479329266893) (-51) / dy 7036874417767244 (-49) = dy (-5188146770730189) (-54) :=
  dy_div (by norm_num) (by dyN)
@[local simp] theorem op47 : dy 0 0 / dy 7036874417767244 (-49) = dy 0 0 :=
  dy_div (by norm_num) (by dyE)
@[local simp] theorem op48 : dy 6738724925880832 (-49) / dy 7036874417767244 (-49) = dy 8625567905126430 (-53) :=
  dy_div (by norm_num) (by dyN)
@[local simp] theorem op49 : dy 8796093022208000 (-43) - dy 8901385599174888 (-43) = dy (-6738724925880832) (-49) :=
  dy_sub (by dyE)
@[local simp] theorem op50 : dy (-6738724925880832) (-49) * dy (-6738724925880832) (-49) = dy 5041568676610056 (-45) :=
  dy_mul (by dyN)
@[local simp] theorem op51 : dy (-6738724925880832) (-49) / dy 7036874417767244 (-49) = dy (-8625567905126430) (-53) :=
  dy_div (by norm_num) (by dyN)
@[local simp] theorem op52 : (dy 4951760157141521 (-92) < dy 8690800445241112 (-43)) = True :=
  by rw [dy_lt]; norm_num
@[local simp] theorem op53 : (dy 4951760157141521 (-92) < dy 8901385599174888 (-43)) = True :=
  by rw [dy_lt]; norm_num
@[local simp] theorem op54 : (dy 8690800445241112 (-43) < dy 8901385599174888 (-43)) = True :=
  by rw [dy_lt]; norm_num
@[local simp] theorem op55 : dy 8106479329266893 (-51) - dy 8106479329266893 (-51) = dy 0 0 :=
  dy_sub (by dyE)
@[local simp] theorem op56 : dy 0 0 - dy 8901385599174888 (-43) = dy (-8901385599174888) (-43) :=
  dy_sub (by dyE)
@[local simp] theorem op57 : dy (-8901385599174888) (-43) * dy (-8901385599174888) (-43) = dy 8796815008116141 (-33) :=
  dy_mul (by dyN)
@[local simp] theorem op58 : dy 0 0 + dy 8796815008116141 (-33) = dy 8796815008116141 (-33) :=
  dy_add (by dyE)
@[local simp] theorem op59 : PyNum.sqrt (dy 8796815008116141 (-33)) = dy 8901385599174888 (-43) :=
  dy_sqrtN (by norm_num) (by norm_num) (by norm_num) (by norm_num) (by norm_num) (by norm_num) (by norm_num) (by norm_num)
@[local simp] theorem op60 : -(dy (-5188146770730189) (-54)) = dy 5188146770730189 (-54) :=
  dy_neg (by norm_num)
@[local simp] theorem op61 : -(dy 0 0) = dy 0 0 :=
  dy_neg (by norm_num)
@[local simp] theorem op62 : -(dy (-8625567905126430) (-53)) = dy 8625567905126430 (-53) :=
  dy_neg (by norm_num)
@[local simp] theorem op63 : dy 0 0 - dy 8690800445241112 (-43) = dy (-8690800445241112) (-43) :=
  dy_sub (by dyE)
@[local simp] theorem op64 : dy (-8690800445241112) (-43) * dy (-8690800445241112) (-43) = dy 8385515879339235 (-33) :=
  dy_mul (by dyN)
@[local simp] theorem op65 : dy 0 0 + dy 8385515879339235 (-33) = dy 8385515879339235 (-33) :=
  dy_add (by dyE)
@[local simp] theorem op66 : PyNum.sqrt (dy 8385515879339235 (-33)) = dy 8690800445241112 (-43) :=
  dy_sqrtN (by norm_num) (by norm_num) (by norm_num) (by norm_num) (by norm_num) (by norm_num) (by norm_num) (by norm_num)
@[local simp] theorem op67 : -(dy 8625567905126430 (-53)) = dy (-8625567905126430) (-53) :=
  dy_neg (by norm_num)
@[local simp] theorem op68 : (dy 4617948836659200 (-42) < dy 8690800445241112 (-43)) = False :=
  by rw [dy_lt]; norm_num
@[local simp] theorem op69 : dy 4617948836659200 (-42) - dy 8690800445241112 (-43) = dy 8721555649236608 (-47) :=
  dy_sub (by dyE)
@[local simp] theorem op70 : dy 0 0 * dy 5188146770730189 (-54) = dy 0 0 :=
  dy_mul (by dyE)
@[local simp] theorem op71 : dy 4503599627370496 (-52) * dy (-8625567905126430) (-53) = dy (-8625567905126430) (-53) :=
  dy_mul (by dyE)
@[local simp] theorem op72 : dy 0 0 + dy (-8625567905126430) (-53) = dy (-8625567905126430) (-53) :=
  dy_add (by dyE)
@[local simp] theorem op73 : (dy (-8625567905126430) (-53) < dy 0 0) = True :=
  by rw [dy_lt]; norm_num
@[local simp] theorem op74 : -(dy 4503599627370496 (-52)) = dy (-4503599627370496) (-52) :=
  dy_neg (by norm_num)
@[local simp] theorem op75 : dy (-4503599627370496) (-52) * dy (-8625567905126430) (-53) = dy 8625567905126430 (-53) :=
  dy_mul (by dyE)
@[local simp] theorem op76 : dy 0 0 + dy 8625567905126430 (-53) = dy 8625567905126430 (-53) :=
  dy_add (by dyE)
@[local simp] theorem op77 : PyNum.eqb (dy 6755399441055744 (-52)) (dy 0 0) = false :=
  dy_eqb (by norm_num)
@[local simp] theorem op78 : dy 4503599627370496 (-52) / dy 6755399441055744 (-52) = dy 6004799503160661 (-53) :=
  dy_div (by norm_num) (by dyN)
@[local simp] theorem op79 : dy 6004799503160661 (-53) * dy 6004799503160661 (-53) = dy 8006399337547548 (-54) :=
  dy_mul (by dyN)
@[local simp] theorem op80 : dy 8625567905126430 (-53) * dy 8625567905126430 (-53) = dy 8260106119755933 (-53) :=
  dy_mul (by dyN)
@[local simp] theorem op81 : dy 4503599627370496 (-52) - dy 8260106119755933 (-53) = dy 5976745079880472 (-56) :=
  dy_sub (by dyE)
@[local simp] theorem op82 : dy 8006399337547548 (-54) * dy 5976745079880472 (-56) = dy 5312662293227086 (-57) :=
  dy_mul (by dyN)
@[local simp] theorem op83 : (dy 6755399441055744 (-52) < dy 4503599627370496 (-52)) = False :=
  by rw [dy_lt]; norm_num
@[local simp] theorem op84 : dy 6004799503160661 (-53) * dy 0 0 = dy 0 0 :=
  dy_mul (by dyE)
@[local simp] theorem op85 : dy 6004799503160661 (-53) * dy 4503599627370496 (-52) = dy 6004799503160661 (-53) :=
  dy_mul (by dyE)
@[local simp] theorem op86 : dy 6004799503160661 (-53) * dy 8625567905126430 (-53) = dy 5750378603417620 (-53) :=
  dy_mul (by dyN)
@[local simp] theorem op87 : dy 4503599627370496 (-52) - dy 5312662293227086 (-57) = dy 8675157861414299 (-53) :=
  dy_sub (by dyN)
@[local simp] theorem op88 : PyNum.sqrt (dy 8675157861414299 (-53)) = dy 8839619642501103 (-53) :=
  dy_sqrtN (by norm_num) (by norm_num) (by norm_num) (by norm_num) (by norm_num) (by norm_num) (by norm_num) (by norm_num)
@[local simp] theorem op89 : dy 5750378603417620 (-53) - dy 8839619642501103 (-53) = dy (-6178482078166966) (-54) :=
  dy_sub (by dyE)
@[local simp] theorem op90 : dy (-6178482078166966) (-54) * dy 5188146770730189 (-54) = dy (-7117611354047491) (-56) :=
  dy_mul (by dyN)
@[local simp] theorem op91 : dy (-6178482078166966) (-54) * dy 0 0 = dy 0 0 :=
  dy_mul (by dyE)
@[local simp] theorem op92 : dy (-6178482078166966) (-54) * dy (-8625567905126430) (-53) = dy 5916702318735182 (-54) :=
  dy_mul (by dyN)
@[local simp] theorem op93 : dy 0 0 + dy (-7117611354047491) (-56) = dy (-7117611354047491) (-56) :=
  dy_add (by dyE)
@[local simp] theorem op94 : dy 6004799503160661 (-53) + dy 5916702318735182 (-54) = dy 8963150662528252 (-53) :=
  dy_add (by dyE)
@[local simp] theorem op95 : (dy 0 0 < dy 8721555649236608 (-47)) = True :=
  by rw [dy_lt]; norm_num
@[local simp] theorem op96 : dy (-7117611354047491) (-56) * dy (-8106479329266893) (-51) = dy 6405850218642742 (-54) :=
  dy_mul (by dyN)
@[local simp] theorem op97 : dy 6405850218642742 (-54) + dy 0 0 = dy 6405850218642742 (-54) :=
  dy_add (by dyE)
@[local simp] theorem op98 : dy 8963150662528252 (-53) * dy 6738724925880832 (-49) = dy 6705770026372229 (-49) :=
  dy_mul (by dyN)
@[local simp] theorem op99 : dy 6405850218642742 (-54) + dy 6705770026372229 (-49) = dy 6905952845704815 (-49) :=
  dy_add (by dyN)
@[local simp] theorem op100 : dy 5497558138881319 (-45) - dy 5497558138880000 (-45) = dy 5801023348146176 (-87) :=
  dy_sub (by dyE)
@[local simp] theorem op101 : dy 6905952845704815 (-49) * dy 6905952845704815 (-49) = dy 5294896155649646 (-45) :=
  dy_mul (by dyN)
@[local simp] theorem op102 : dy 5294896155649646 (-45) - dy 5801023348146176 (-87) = dy 5294896155648327 (-45) :=
  dy_sub (by dyE)
@[local simp] theorem op103 : (dy 0 0 < dy 5294896155648327 (-45)) = True :=
  by rw [dy_lt]; norm_num
@[local simp] theorem op104 : PyNum.sqrt (dy 5294896155648327 (-45)) = dy 6905952845703955 (-49) :=
  dy_sqrtN (by norm_num) (by norm_num) (by norm_num) (by norm_num) (by norm_num) (by norm_num) (by norm_num) (by norm_num)
@[local simp] theorem op105 : dy 6905952845704815 (-49) - dy 6905952845703955 (-49) = dy 7564639999098880 (-92) :=
  dy_sub (by dyE)
@[local simp] theorem op106 : dy 6905952845704815 (-49) + dy 6905952845703955 (-49) = dy 6905952845704385 (-48) :=
  dy_add (by dyE)
@[local simp] theorem op107 : dy 7564639999098880 (-92) * dy (-7117611354047491) (-56) = dy (-5977681410625823) (-95) :=
  dy_mul (by dyN)
@[local simp] theorem op108 : dy 7564639999098880 (-92) * dy 0 0 = dy 0 0 :=
  dy_mul (by dyE)
@[local simp] theorem op109 : dy 7564639999098880 (-92) * dy 8963150662528252 (-53) = dy 7527646064232712 (-92) :=
  dy_mul (by dyN)
@[local simp] theorem op110 : dy 8106479329266893 (-51) + dy (-5977681410625823) (-95) = dy 8106479329266553 (-51) :=
  dy_add (by dyN)
@[local simp] theorem op111 : dy 8690800445241112 (-43) + dy 7527646064232712 (-92) = dy 8690800445241125 (-43) :=
  dy_add (by dyN)
@[local simp] theorem op112 : dy 6905952845704385 (-48) * dy (-7117611354047491) (-56) = dy (-5457177863499542) (-51) :=
  dy_mul (by dyN)
@[local simp] theorem op113 : dy 6905952845704385 (-48) * dy 0 0 = dy 0 0 :=
  dy_mul (by dyE)
@[local simp] theorem op114 : dy 6905952845704385 (-48) * dy 8963150662528252 (-53) = dy 6872180138768794 (-48) :=
  dy_mul (by dyN)
@[local simp] theorem op115 : dy 8106479329266893 (-51) + dy (-5457177863499542) (-51) = dy 5298602931534702 (-52) :=
  dy_add (by dyE)
@[local simp] theorem op116 : dy 8690800445241112 (-43) + dy 6872180138768794 (-48) = dy 8905556074577637 (-43) :=
  dy_add (by dyN)
@[local simp] theorem op117 : dy 0 0 - dy 8106479329266553 (-51) = dy (-8106479329266553) (-51) :=
  dy_sub (by dyE)
@[local simp] theorem op118 : dy 8796093022208000 (-43) - dy 8690800445241125 (-43) = dy 6738724925880000 (-49) :=
  dy_sub (by dyE)
@[local simp] theorem op119 : dy (-8106479329266553) (-51) * dy (-8106479329266553) (-51) = dy 7295831396339592 (-49) :=
  dy_mul (by dyN)
@[local simp] theorem op120 : dy 7295831396339592 (-49) + dy 0 0 = dy 7295831396339592 (-49) :=
  dy_add (by dyE)
@[local simp] theorem op121 : dy 6738724925880000 (-49) * dy 6738724925880000 (-49) = dy 5041568676608811 (-45) :=
  dy_mul (by dyN)
@[local simp] theorem op122 : dy 7295831396339592 (-49) + dy 5041568676608811 (-45) = dy 5497558138880036 (-45) :=
  dy_add (by dyT)
@[local simp] theorem op123 : PyNum.sqrt (dy 5497558138880036 (-45)) = dy 7036874417766423 (-49) :=
  dy_sqrtN (by norm_num) (by norm_num) (by norm_num) (by norm_num) (by norm_num) (by norm_num) (by norm_num) (by norm_num)
@[local simp] theorem op124 : dy (-8106479329266553) (-51) / dy 7036874417766423 (-49) = dy (-5188146770730577) (-54) :=
  dy_div (by norm_num) (by dyN)
@[local simp] theorem op125 : dy 0 0 / dy 7036874417766423 (-49) = dy 0 0 :=
  dy_div (by norm_num) (by dyE)
@[local simp] theorem op126 : dy 6738724925880000 (-49) / dy 7036874417766423 (-49) = dy 8625567905126372 (-53) :=
  dy_div (by norm_num) (by dyN)
@[local simp] theorem op127 : dy 0 0 - dy 5298602931534702 (-52) = dy (-5298602931534702) (-52) :=
  dy_sub (by dyE)
@[local simp] theorem op128 : dy 8796093022208000 (-43) - dy 8905556074577637 (-43) = dy (-7005635351656768) (-49) :=
  dy_sub (by dyE)
@[local simp] theorem op129 : dy (-5298602931534702) (-52) * dy (-5298602931534702) (-52) = dy 6233945143667294 (-52) :=
  dy_mul (by dyN)
@[local simp] theorem op130 : dy 6233945143667294 (-52) + dy 0 0 = dy 6233945143667294 (-52) :=
  dy_add (by dyE)
@[local simp] theorem op131 : dy (-7005635351656768) (-49) * dy (-7005635351656768) (-49) = dy 5448855442445116 (-45) :=
  dy_mul (by dyN)
@[local simp] theorem op132 : dy 6233945143667294 (-52) + dy 5448855442445116 (-45) = dy 5497558138880017 (-45) :=
  dy_add (by dyN)
@[local simp] theorem op133 : PyNum.sqrt (dy 5497558138880017 (-45)) = dy 7036874417766411 (-49) :=
  dy_sqrtN (by norm_num) (by norm_num) (by norm_num) (by norm_num) (by norm_num) (by norm_num) (by norm_num) (by norm_num)
@[local simp] theorem op134 : dy (-5298602931534702) (-52) / dy 7036874417766411 (-49) = dy (-6782211752364408) (-56) :=
  dy_div (by norm_num) (by dyN)
@[local simp] theorem op135 : dy 0 0 / dy 7036874417766411 (-49) = dy 0 0 :=
  dy_div (by norm_num) (by dyE)
@[local simp] theorem op136 : dy (-7005635351656768) (-49) / dy 7036874417766411 (-49) = dy (-8967213250120649) (-53) :=
  dy_div (by norm_num) (by dyN)
@[local simp] theorem op137 : (dy 4951760157141521 (-92) < dy 7564639999098880 (-92)) = True :=
  by rw [dy_lt]; norm_num
@[local simp] theorem op138 : (dy 4951760157141521 (-92) < dy 6905952845704385 (-48)) = True :=
  by rw [dy_lt]; norm_num
@[local simp] theorem op139 : (dy 7564639999098880 (-92) < dy 6905952845704385 (-48)) = True :=
  by rw [dy_lt]; norm_num
@[local simp] theorem op140 : dy 8106479329266893 (-51) - dy 5298602931534702 (-52) = dy 5457177863499542 (-51) :=
  dy_sub (by dyE)
@[local simp] theorem op141 : dy 8690800445241112 (-43) - dy 8905556074577637 (-43) = dy (-6872180138768800) (-48) :=
  dy_sub (by dyE)
@[local simp] theorem op142 : dy 5457177863499542 (-51) * dy 5457177863499542 (-51) = dy 6612663801834767 (-50) :=
  dy_mul (by dyN)
@[local simp] theorem op143 : dy 6612663801834767 (-50) + dy 0 0 = dy 6612663801834767 (-50) :=
  dy_add (by dyE)
@[local simp] theorem op144 : dy (-6872180138768800) (-48) * dy (-6872180138768800) (-48) = dy 5243234719697161 (-43) :=
  dy_mul (by dyN)
@[local simp] theorem op145 : dy 6612663801834767 (-50) + dy 5243234719697161 (-43) = dy 5294896155648995 (-43) :=
  dy_add (by dyN)
@[local simp] theorem op146 : PyNum.sqrt (dy 5294896155648995 (-43)) = dy 6905952845704391 (-48) :=
  dy_sqrtN (by norm_num) (by norm_num) (by norm_num) (by norm_num) (by norm_num) (by norm_num) (by norm_num) (by norm_num)
@[local simp] theorem op147 : -(dy (-6782211752364408) (-56)) = dy 6782211752364408 (-56) :=
  dy_neg (by norm_num)
@[local simp] theorem op148 : -(dy (-8967213250120649) (-53)) = dy 8967213250120649 (-53) :=
  dy_neg (by norm_num)
@[local simp] theorem op149 : dy 8106479329266893 (-51) - dy 8106479329266553 (-51) = dy 5981343255101440 (-95) :=
  dy_sub (by dyE)
@[local simp] theorem op150 : dy 8690800445241112 (-43) - dy 8690800445241125 (-43) = dy (-7318349394477056) (-92) :=
  dy_sub (by dyE)
@[local simp] theorem op151 : dy 5981343255101440 (-95) * dy 5981343255101440 (-95) = dy 7943971510681600 (-138) :=
  dy_mul (by dyE)
@[local simp] theorem op152 : dy 7943971510681600 (-138) + dy 0 0 = dy 7943971510681600 (-138) :=
  dy_add (by dyE)
@[local simp] theorem op153 : dy (-7318349394477056) (-92) * dy (-7318349394477056) (-92) = dy 5946158883012608 (-131) :=
  dy_mul (by dyE)
@[local simp] theorem op154 : dy 7943971510681600 (-138) + dy 5946158883012608 (-131) = dy 6008221160439808 (-131) :=
  dy_add (by dyE)
@[local simp] theorem op155 : PyNum.sqrt (dy 6008221160439808 (-131)) = dy 7356442425427694 (-92) :=
  dy_sqrtN (by norm_num) (by norm_num) (by norm_num) (by norm_num) (by norm_num) (by norm_num) (by norm_num) (by norm_num)
@[local simp] theorem op156 : (dy 7356442425427694 (-92) < dy 6905952845704391 (-48)) = True :=
  by rw [dy_lt]; norm_num
@[local simp] theorem op157 : -(dy (-5188146770730577) (-54)) = dy 5188146770730577 (-54) :=
  dy_neg (by norm_num)
@[local simp] theorem op158 : -(dy 8625567905126372 (-53)) = dy (-8625567905126372) (-53) :=
  dy_neg (by norm_num)
@[local simp] theorem op159 : (dy 8721555649236608 (-47) < dy 7356442425427694 (-92)) = False :=
  by rw [dy_lt]; norm_num
@[local simp] theorem op160 : (dy 4951760157141521 (-92) < dy 7356442425427694 (-92)) = True :=
  by rw [dy_lt]; norm_num
@[local simp] theorem op161 : dy 7356442425427694 (-92) * dy (-7117611354047491) (-56) = dy (-5813160856307322) (-95) :=
  dy_mul (by dyN)
@[local simp] theorem op162 : dy 7356442425427694 (-92) * dy 0 0 = dy 0 0 :=
  dy_mul (by dyE)
@[local simp] theorem op163 : dy 7356442425427694 (-92) * dy 8963150662528252 (-53) = dy 7320466655005650 (-92) :=
  dy_mul (by dyN)
@[local simp] theorem op164 : dy 8106479329266893 (-51) + dy (-5813160856307322) (-95) = dy 8106479329266563 (-51) :=
  dy_add (by dyN)
@[local simp] theorem op165 : dy 8690800445241112 (-43) + dy 7320466655005650 (-92) = dy 8690800445241125 (-43) :=
  dy_add (by dyN)
@[local simp] theorem op166 : dy 8721555649236608 (-47) - dy 7356442425427694 (-92) = dy 8721555649236399 (-47) :=
  dy_sub (by dyN)
@[local simp] theorem op167 : dy (-7117611354047491) (-56) * dy 5188146770730577 (-54) = dy (-8199488279862339) (-58) :=
  dy_mul (by dyN)
@[local simp] theorem op168 : dy (-8199488279862339) (-58) + dy 0 0 = dy (-8199488279862339) (-58) :=
  dy_add (by dyE)
@[local simp] theorem op169 : dy 8963150662528252 (-53) * dy (-8625567905126372) (-53) = dy (-8583385633755366) (-53) :=
  dy_mul (by dyN)
@[local simp] theorem op170 : dy (-8199488279862339) (-58) + dy (-8583385633755366) (-53) = dy (-8839619642501064) (-53) :=
  dy_add (by dyN)
@[local simp] theorem op171 : (dy (-8839619642501064) (-53) < dy 0 0) = True :=
  by rw [dy_lt]; norm_num
@[local simp] theorem op172 : -(dy (-7117611354047491) (-56)) = dy 7117611354047491 (-56) :=
  dy_neg (by norm_num)
@[local simp] theorem op173 : -(dy 8963150662528252 (-53)) = dy (-8963150662528252) (-53) :=
  dy_neg (by norm_num)
@[local simp] theorem op174 : dy 7117611354047491 (-56) * dy 5188146770730577 (-54) = dy 8199488279862339 (-58) :=
  dy_mul (by dyN)
@[local simp] theorem op175 : dy 8199488279862339 (-58) + dy 0 0 = dy 8199488279862339 (-58) :=
  dy_add (by dyE)
@[local simp] theorem op176 : dy (-8963150662528252) (-53) * dy (-8625567905126372) (-53) = dy 8583385633755366 (-53) :=
  dy_mul (by dyN)
@[local simp] theorem op177 : dy 8199488279862339 (-58) + dy 8583385633755366 (-53) = dy 8839619642501064 (-53) :=
  dy_add (by dyN)
@[local simp] theorem op178 : dy 8839619642501064 (-53) * dy 8839619642501064 (-53) = dy 8675157861414222 (-53) :=
  dy_mul (by dyN)
@[local simp] theorem op179 : dy 4503599627370496 (-52) - dy 8675157861414222 (-53) = dy 5312662293228320 (-57) :=
  dy_sub (by dyE)
@[local simp] theorem op180 : dy 8006399337547548 (-54) * dy 5312662293228320 (-57) = dy 4722366482869618 (-58) :=
  dy_mul (by dyN)
@[local simp] theorem op181 : dy 6004799503160661 (-53) * dy (-7117611354047491) (-56) = dy (-4745074236031660) (-56) :=
  dy_mul (by dyN)
@[local simp] theorem op182 : dy 6004799503160661 (-53) * dy 8963150662528252 (-53) = dy 5975433775018834 (-53) :=
  dy_mul (by dyN)
@[local simp] theorem op183 : dy 6004799503160661 (-53) * dy 8839619642501064 (-53) = dy 5893079761667376 (-53) :=
  dy_mul (by dyN)
@[local simp] theorem op184 : dy 4503599627370496 (-52) - dy 4722366482869618 (-58) = dy 8859625302151316 (-53) :=
  dy_sub (by dyN)
@[local simp] theorem op185 : PyNum.sqrt (dy 8859625302151316 (-53)) = dy 8933107545463772 (-53) :=
  dy_sqrtN (by norm_num) (by norm_num) (by norm_num) (by norm_num) (by norm_num) (by norm_num) (by norm_num) (by norm_num)
@[local simp] theorem op186 : dy 5893079761667376 (-53) - dy 8933107545463772 (-53) = dy (-6080055567592792) (-54) :=
  dy_sub (by dyE)
@[local simp] theorem op187 : dy (-6080055567592792) (-54) * dy 5188146770730577 (-54) = dy (-7004224013866580) (-56) :=
  dy_mul (by dyN)
@[local simp] theorem op188 : dy (-6080055567592792) (-54) * dy 0 0 = dy 0 0 :=
  dy_mul (by dyE)
@[local simp] theorem op189 : dy (-6080055567592792) (-54) * dy (-8625567905126372) (-53) = dy 5822446099169964 (-54) :=
  dy_mul (by dyN)
@[local simp] theorem op190 : dy (-4745074236031660) (-56) + dy (-7004224013866580) (-56) = dy (-5874649124949120) (-55) :=
  dy_add (by dyE)
@[local simp] theorem op191 : dy 5975433775018834 (-53) + dy 5822446099169964 (-54) = dy 8886656824603816 (-53) :=
  dy_add (by dyE)
@[local simp] theorem op192 : (dy 0 0 < dy 8721555649236399 (-47)) = True :=
  by rw [dy_lt]; norm_num
@[local simp] theorem op193 : dy 0 0 - dy 8106479329266563 (-51) = dy (-8106479329266563) (-51) :=
  dy_sub (by dyE)
@[local simp] theorem op194 : dy (-5874649124949120) (-55) * dy (-8106479329266563) (-51) = dy 5287184212453993 (-53) :=
  dy_mul (by dyN)
@[local simp] theorem op195 : dy 5287184212453993 (-53) + dy 0 0 = dy 5287184212453993 (-53) :=
  dy_add (by dyE)
@[local simp] theorem op196 : dy 8886656824603816 (-53) * dy 6738724925880000 (-49) = dy 6648541256615220 (-49) :=
  dy_mul (by dyN)
@[local simp] theorem op197 : dy 5287184212453993 (-53) + dy 6648541256615220 (-49) = dy 6978990269893595 (-49) :=
  dy_add (by dyN)
@[local simp] theorem op198 : dy (-8106479329266563) (-51) * dy (-8106479329266563) (-51) = dy 7295831396339610 (-49) :=
  dy_mul (by dyN)
@[local simp] theorem op199 : dy 7295831396339610 (-49) + dy 0 0 = dy 7295831396339610 (-49) :=
  dy_add (by dyE)
@[local simp] theorem op200 : dy 7295831396339610 (-49) + dy 5041568676608811 (-45) = dy 5497558138880037 (-45) :=
  dy_add (by dyN)
@[local simp] theorem op201 : dy 5497558138880037 (-45) - dy 5497558138880000 (-45) = dy 5207287069147136 (-92) :=
  dy_sub (by dyE)
@[local simp] theorem op202 : dy 6978990269893595 (-49) * dy 6978990269893595 (-49) = dy 5407486146332627 (-45) :=
  dy_mul (by dyN)
@[local simp] theorem op203 : dy 5407486146332627 (-45) - dy 5207287069147136 (-92) = dy 5407486146332590 (-45) :=
  dy_sub (by dyE)
@[local simp] theorem op204 : (dy 0 0 < dy 5407486146332590 (-45)) = True :=
  by rw [dy_lt]; norm_num
@[local simp] theorem op205 : PyNum.sqrt (dy 5407486146332590 (-45)) = dy 6978990269893571 (-49) :=
  dy_sqrtN (by norm_num) (by norm_num) (by norm_num) (by norm_num) (by norm_num) (by norm_num) (by norm_num) (by norm_num)
@[local simp] theorem op206 : dy 6978990269893595 (-49) - dy 6978990269893571 (-49) = dy 6755399441055744 (-97) :=
  dy_sub (by dyE)
@[local simp] theorem op207 : dy 6978990269893595 (-49) + dy 6978990269893571 (-49) = dy 6978990269893583 (-48) :=
  dy_add (by dyE)
@[local simp] theorem op208 : dy 6755399441055744 (-97) * dy (-5874649124949120) (-55) = dy (-8811973687423680) (-100) :=
  dy_mul (by dyE)
@[local simp] theorem op209 : dy 6755399441055744 (-97) * dy 0 0 = dy 0 0 :=
  dy_mul (by dyE)
@[local simp] theorem op210 : dy 6755399441055744 (-97) * dy 8886656824603816 (-53) = dy 6664992618452862 (-97) :=
  dy_mul (by dyE)
@[local simp] theorem op211 : dy 8106479329266563 (-51) + dy (-8811973687423680) (-100) = dy 8106479329266547 (-51) :=
  dy_add (by dyN)
@[local simp] theorem op212 : dy 8690800445241125 (-43) + dy 6664992618452862 (-97) = dy 8690800445241125 (-43) :=
  dy_add (by dyN)
@[local simp] theorem op213 : dy 6978990269893583 (-48) * dy (-5874649124949120) (-55) = dy (-4551816599425025) (-50) :=
  dy_mul (by dyN)
@[local simp] theorem op214 : dy 6978990269893583 (-48) * dy 0 0 = dy 0 0 :=
  dy_mul (by dyE)
@[local simp] theorem op215 : dy 6978990269893583 (-48) * dy 8886656824603816 (-53) = dy 6885591154003716 (-48) :=
  dy_mul (by dyN)
@[local simp] theorem op216 : dy 8106479329266563 (-51) + dy (-4551816599425025) (-50) = dy (-7977230956667896) (-54) :=
  dy_add (by dyE)
@[local simp] theorem op217 : dy 8690800445241125 (-43) + dy 6885591154003716 (-48) = dy 8905975168803741 (-43) :=
  dy_add (by dyN)
@[local simp] theorem op218 : dy 0 0 - dy 8106479329266547 (-51) = dy (-8106479329266547) (-51) :=
  dy_sub (by dyE)
@[local simp] theorem op219 : dy (-8106479329266547) (-51) * dy (-8106479329266547) (-51) = dy 7295831396339581 (-49) :=
  dy_mul (by dyN)
@[local simp] theorem op220 : dy 7295831396339581 (-49) + dy 0 0 = dy 7295831396339581 (-49) :=
  dy_add (by dyE)
@[local simp] theorem op221 : dy 7295831396339581 (-49) + dy 5041568676608811 (-45) = dy 5497558138880035 (-45) :=
  dy_add (by dyN)
@[local simp] theorem op222 : PyNum.sqrt (dy 5497558138880035 (-45)) = dy 7036874417766422 (-49) :=
  dy_sqrtN (by norm_num) (by norm_num) (by norm_num) (by norm_num) (by norm_num) (by norm_num) (by norm_num) (by norm_num)
@[local simp] theorem op223 : dy (-8106479329266547) (-51) / dy 7036874417766422 (-49) = dy (-5188146770730574) (-54) :=
  dy_div (by norm_num) (by dyN)
@[local simp] theorem op224 : dy 0 0 / dy 7036874417766422 (-49) = dy 0 0 :=
  dy_div (by norm_num) (by dyE)
@[local simp] theorem op225 : dy 6738724925880000 (-49) / dy 7036874417766422 (-49) = dy 8625567905126373 (-53) :=
  dy_div (by norm_num) (by dyN)
@[local simp] theorem op226 : dy 0 0 - dy (-7977230956667896) (-54) = dy 7977230956667896 (-54) :=
  dy_sub (by dyE)
@[local simp] theorem op227 : dy 8796093022208000 (-43) - dy 8905975168803741 (-43) = dy (-7032457382127424) (-49) :=
  dy_sub (by dyE)
@[local simp] theorem op228 : dy 7977230956667896 (-54) * dy 7977230956667896 (-54) = dy 7065038968969772 (-55) :=
  dy_mul (by dyN)
@[local simp] theorem op229 : dy 7065038968969772 (-55) + dy 0 0 = dy 7065038968969772 (-55) :=
  dy_add (by dyE)
@[local simp] theorem op230 : dy (-7032457382127424) (-49) * dy (-7032457382127424) (-49) = dy 5490658686761851 (-45) :=
  dy_mul (by dyN)
@[local simp] theorem op231 : dy 7065038968969772 (-55) + dy 5490658686761851 (-45) = dy 5497558138879986 (-45) :=
  dy_add (by dyN)
@[local simp] theorem op232 : PyNum.sqrt (dy 5497558138879986 (-45)) = dy 7036874417766391 (-49) :=
  dy_sqrtN (by norm_num) (by norm_num) (by norm_num) (by norm_num) (by norm_num) (by norm_num) (by norm_num) (by norm_num)
@[local simp] theorem op233 : dy 7977230956667896 (-54) / dy 7036874417766391 (-49) = dy 5105427812267460 (-57) :=
  dy_div (by norm_num) (by dyN)
@[local simp] theorem op234 : dy 0 0 / dy 7036874417766391 (-49) = dy 0 0 :=
  dy_div (by norm_num) (by dyE)
@[local simp] theorem op235 : dy (-7032457382127424) (-49) / dy 7036874417766391 (-49) = dy (-9001545449123114) (-53) :=
  dy_div (by norm_num) (by dyN)
@[local simp] theorem op236 : (dy 4951760157141521 (-92) < dy 6755399441055744 (-97)) = False :=
  by rw [dy_lt]; norm_num
@[local simp] theorem op237 : (dy 4951760157141521 (-92) < dy 6978990269893583 (-48)) = True :=
  by rw [dy_lt]; norm_num
@[local simp] theorem op238 : dy 8106479329266563 (-51) - dy (-7977230956667896) (-54) = dy 4551816599425025 (-50) :=
  dy_sub (by dyE)
@[local simp] theorem op239 : dy 8690800445241125 (-43) - dy 8905975168803741 (-43) = dy (-6885591154003712) (-48) :=
  dy_sub (by dyE)
@[local simp] theorem op240 : dy 4551816599425025 (-50) * dy 4551816599425025 (-50) = dy 4600549797739983 (-48) :=
  dy_mul (by dyN)
@[local simp] theorem op241 : dy 4600549797739983 (-48) + dy 0 0 = dy 4600549797739983 (-48) :=
  dy_add (by dyE)
@[local simp] theorem op242 : dy (-6885591154003712) (-48) * dy (-6885591154003712) (-48) = dy 5263718965153227 (-43) :=
  dy_mul (by dyN)
@[local simp] theorem op243 : dy 4600549797739983 (-48) + dy 5263718965153227 (-43) = dy 5407486146332601 (-43) :=
  dy_add (by dyN)
@[local simp] theorem op244 : PyNum.sqrt (dy 5407486146332601 (-43)) = dy 6978990269893578 (-48) :=
  dy_sqrtN (by norm_num) (by norm_num) (by norm_num) (by norm_num) (by norm_num) (by norm_num) (by norm_num) (by norm_num)
@[local simp] theorem op245 : -(dy 5105427812267460 (-57)) = dy (-5105427812267460) (-57) :=
  dy_neg (by norm_num)
@[local simp] theorem op246 : -(dy (-9001545449123114) (-53)) = dy 9001545449123114 (-53) :=
  dy_neg (by norm_num)
@[local simp] theorem op247 : (dy 8721555649236399 (-47) < dy 6978990269893578 (-48)) = False :=
  by rw [dy_lt]; norm_num
@[local simp] theorem op248 : (dy 4951760157141521 (-92) < dy 6978990269893578 (-48)) = True :=
  by rw [dy_lt]; norm_num
@[local simp] theorem op249 : dy 6978990269893578 (-48) * dy (-5874649124949120) (-55) = dy (-4551816599425022) (-50) :=
  dy_mul (by dyN)
@[local simp] theorem op250 : dy 6978990269893578 (-48) * dy 0 0 = dy 0 0 :=
  dy_mul (by dyE)
@[local simp] theorem op251 : dy 6978990269893578 (-48) * dy 8886656824603816 (-53) = dy 6885591154003711 (-48) :=
  dy_mul (by dyN)
@[local simp] theorem op252 : dy 8106479329266563 (-51) + dy (-4551816599425022) (-50) = dy (-7977230956667848) (-54) :=
  dy_add (by dyE)
@[local simp] theorem op253 : dy 8690800445241125 (-43) + dy 6885591154003711 (-48) = dy 8905975168803741 (-43) :=
  dy_add (by dyN)
@[local simp] theorem op254 : dy 8721555649236399 (-47) - dy 6978990269893578 (-48) = dy 5232060514289610 (-47) :=
  dy_sub (by dyE)
@[local simp] theorem op255 : -(dy (-5105427812267460) (-57)) = dy 5105427812267460 (-57) :=
  dy_neg (by norm_num)
@[local simp] theorem op256 : -(dy 9001545449123114 (-53)) = dy (-9001545449123114) (-53) :=
  dy_neg (by norm_num)
@[local simp] theorem op257 : dy (-5874649124949120) (-55) * dy 5105427812267460 (-57) = dy (-6659694358163811) (-60) :=
  dy_mul (by dyN)
@[local simp] theorem op258 : dy (-6659694358163811) (-60) + dy 0 0 = dy (-6659694358163811) (-60) :=
  dy_add (by dyE)
@[local simp] theorem op259 : dy 8886656824603816 (-53) * dy (-9001545449123114) (-53) = dy (-8881078683290616) (-53) :=
  dy_mul (by dyN)
@[local simp] theorem op260 : dy (-6659694358163811) (-60) + dy (-8881078683290616) (-53) = dy (-8933107545463771) (-53) :=
  dy_add (by dyN)
@[local simp] theorem op261 : (dy (-8933107545463771) (-53) < dy 0 0) = True :=
  by rw [dy_lt]; norm_num
@[local simp] theorem op262 : -(dy (-5874649124949120) (-55)) = dy 5874649124949120 (-55) :=
  dy_neg (by norm_num)
@[local simp] theorem op263 : -(dy 8886656824603816 (-53)) = dy (-8886656824603816) (-53) :=
  dy_neg (by norm_num)
@[local simp] theorem op264 : dy 5874649124949120 (-55) * dy 5105427812267460 (-57) = dy 6659694358163811 (-60) :=
  dy_mul (by dyN)
@[local simp] theorem op265 : dy 6659694358163811 (-60) + dy 0 0 = dy 6659694358163811 (-60) :=
  dy_add (by dyE)
@[local simp] theorem op266 : dy (-8886656824603816) (-53) * dy (-9001545449123114) (-53) = dy 8881078683290616 (-53) :=
  dy_mul (by dyN)
@[local simp] theorem op267 : dy 6659694358163811 (-60) + dy 8881078683290616 (-53) = dy 8933107545463771 (-53) :=
  dy_add (by dyN)
@[local simp] theorem op268 : PyNum.eqb (dy 4503599627370496 (-52)) (dy 0 0) = false :=
  dy_eqb (by norm_num)
@[local simp] theorem op269 : dy 6755399441055744 (-52) / dy 4503599627370496 (-52) = dy 6755399441055744 (-52) :=
  dy_div (by norm_num) (by dyE)
@[local simp] theorem op270 : dy 6755399441055744 (-52) * dy 6755399441055744 (-52) = dy 5066549580791808 (-51) :=
  dy_mul (by dyE)
@[local simp] theorem op271 : dy 8933107545463771 (-53) * dy 8933107545463771 (-53) = dy 8859625302151315 (-53) :=
  dy_mul (by dyN)
@[local simp] theorem op272 : dy 4503599627370496 (-52) - dy 8859625302151315 (-53) = dy 4722366482869664 (-58) :=
  dy_sub (by dyE)
@[local simp] theorem op273 : dy 5066549580791808 (-51) * dy 4722366482869664 (-58) = dy 5312662293228372 (-57) :=
  dy_mul (by dyE)
@[local simp] theorem op274 : (dy 4503599627370496 (-52) < dy 6755399441055744 (-52)) = True :=
  by rw [dy_lt]; norm_num
@[local simp] theorem op275 : (dy 4503599627370496 (-52) < dy 5312662293228372 (-57)) = False :=
  by rw [dy_lt]; norm_num
@[local simp] theorem op276 : dy 6755399441055744 (-52) * dy (-5874649124949120) (-55) = dy (-8811973687423680) (-55) :=
  dy_mul (by dyE)
@[local simp] theorem op277 : dy 6755399441055744 (-52) * dy 0 0 = dy 0 0 :=
  dy_mul (by dyE)
@[local simp] theorem op278 : dy 6755399441055744 (-52) * dy 8886656824603816 (-53) = dy 6664992618452862 (-52) :=
  dy_mul (by dyE)
@[local simp] theorem op279 : dy 6755399441055744 (-52) * dy 8933107545463771 (-53) = dy 6699830659097828 (-52) :=
  dy_mul (by dyN)
@[local simp] theorem op280 : dy 4503599627370496 (-52) - dy 5312662293228372 (-57) = dy 8675157861414219 (-53) :=
  dy_sub (by dyN)
@[local simp] theorem op281 : PyNum.sqrt (dy 8675157861414219 (-53)) = dy 8839619642501062 (-53) :=
  dy_sqrtN (by norm_num) (by norm_num) (by norm_num) (by norm_num) (by norm_num) (by norm_num) (by norm_num) (by norm_num)
@[local simp] theorem op282 : dy 6699830659097828 (-52) - dy 8839619642501062 (-53) = dy 4560041675694594 (-53) :=
  dy_sub (by dyE)
@[local simp] theorem op283 : dy 4560041675694594 (-53) * dy 5105427812267460 (-57) = dy 5169412363990021 (-58) :=
  dy_mul (by dyN)
@[local simp] theorem op284 : dy 4560041675694594 (-53) * dy 0 0 = dy 0 0 :=
  dy_mul (by dyE)
@[local simp] theorem op285 : dy 4560041675694594 (-53) * dy (-9001545449123114) (-53) = dy (-4557179344295605) (-53) :=
  dy_mul (by dyN)
@[local simp] theorem op286 : dy (-8811973687423680) (-55) + dy 5169412363990021 (-58) = dy (-8165797141924927) (-55) :=
  dy_add (by dyN)
@[local simp] theorem op287 : dy 6664992618452862 (-52) + dy (-4557179344295605) (-53) = dy 8772805892610119 (-53) :=
  dy_add (by dyE)
@[local simp] theorem op288 : (dy 0 0 < dy 5232060514289610 (-47)) = True :=
  by rw [dy_lt]; norm_num
@[local simp] theorem op289 : dy 0 0 - dy (-7977230956667848) (-54) = dy 7977230956667848 (-54) :=
  dy_sub (by dyE)
@[local simp] theorem op290 : dy (-8165797141924927) (-55) * dy 7977230956667848 (-54) = dy (-7232042714292826) (-56) :=
  dy_mul (by dyN)
@[local simp] theorem op291 : dy (-7232042714292826) (-56) + dy 0 0 = dy (-7232042714292826) (-56) :=
  dy_add (by dyE)
@[local simp] theorem op292 : dy 8772805892610119 (-53) * dy (-7032457382127424) (-49) = dy (-6849452511998532) (-49) :=
  dy_mul (by dyN)
@[local simp] theorem op293 : dy (-7232042714292826) (-56) + dy (-6849452511998532) (-49) = dy (-6905952845703945) (-49) :=
  dy_add (by dyN)
@[local simp] theorem op294 : dy 7977230956667848 (-54) * dy 7977230956667848 (-54) = dy 7065038968969687 (-55) :=
  dy_mul (by dyN)
@[local simp] theorem op295 : dy 7065038968969687 (-55) + dy 0 0 = dy 7065038968969687 (-55) :=
  dy_add (by dyE)
@[local simp] theorem op296 : dy 7065038968969687 (-55) + dy 5490658686761851 (-45) = dy 5497558138879985 (-45) :=
  dy_add (by dyN)
@[local simp] theorem op297 : dy 5497558138879985 (-45) - dy 5497558138880000 (-45) = dy (-8444249301319680) (-94) :=
  dy_sub (by dyE)
@[local simp] theorem op298 : dy (-6905952845703945) (-49) * dy (-6905952845703945) (-49) = dy 5294896155648312 (-45) :=
  dy_mul (by dyN)
@[local simp] theorem op299 : dy 5294896155648312 (-45) - dy (-8444249301319680) (-94) = dy 5294896155648327 (-45) :=
  dy_sub (by dyE)
@[local simp] theorem op300 : dy (-6905952845703945) (-49) - dy 6905952845703955 (-49) = dy (-6905952845703950) (-48) :=
  dy_sub (by dyE)
@[local simp] theorem op301 : dy (-6905952845703945) (-49) + dy 6905952845703955 (-49) = dy 5629499534213120 (-98) :=
  dy_add (by dyE)
@[local simp] theorem op302 : dy (-6905952845703950) (-48) * dy (-8165797141924927) (-55) = dy 6260837405149559 (-50) :=
  dy_mul (by dyN)
@[local simp] theorem op303 : dy (-6905952845703950) (-48) * dy 0 0 = dy 0 0 :=
  dy_mul (by dyE)
@[local simp] theorem op304 : dy (-6905952845703950) (-48) * dy 8772805892610119 (-53) = dy (-6726239989305242) (-48) :=
  dy_mul (by dyN)
@[local simp] theorem op305 : dy (-7977230956667848) (-54) + dy 6260837405149559 (-50) = dy 5762260470357818 (-50) :=
  dy_add (by dyT)
@[local simp] theorem op306 : dy 8905975168803741 (-43) + dy (-6726239989305242) (-48) = dy 8695780169137952 (-43) :=
  dy_add (by dyN)
@[local simp] theorem op307 : dy 5629499534213120 (-98) * dy (-8165797141924927) (-55) = dy (-5103623213703079) (-100) :=
  dy_mul (by dyN)
@[local simp] theorem op308 : dy 5629499534213120 (-98) * dy 0 0 = dy 0 0 :=
  dy_mul (by dyE)
@[local simp] theorem op309 : dy 5629499534213120 (-98) * dy 8772805892610119 (-53) = dy 5483003682881324 (-98) :=
  dy_mul (by dyN)
@[local simp] theorem op310 : dy (-7977230956667848) (-54) + dy (-5103623213703079) (-100) = dy (-7977230956667921) (-54) :=
  dy_add (by dyN)
@[local simp] theorem op311 : dy 8905975168803741 (-43) + dy 5483003682881324 (-98) = dy 8905975168803741 (-43) :=
  dy_add (by dyN)
@[local simp] theorem op312 : dy 0 0 - dy 5762260470357818 (-50) = dy (-5762260470357818) (-50) :=
  dy_sub (by dyE)
@[local simp] theorem op313 : dy 8796093022208000 (-43) - dy 8695780169137952 (-43) = dy 6420022596483072 (-49) :=
  dy_sub (by dyE)
@[local simp] theorem op314 : dy (-5762260470357818) (-50) * dy (-5762260470357818) (-50) = dy 7372690397799598 (-48) :=
  dy_mul (by dyN)
@[local simp] theorem op315 : dy 7372690397799598 (-48) + dy 0 0 = dy 7372690397799598 (-48) :=
  dy_add (by dyE)
@[local simp] theorem op316 : dy 6420022596483072 (-49) * dy 6420022596483072 (-49) = dy 4575971839155063 (-45) :=
  dy_mul (by dyN)
@[local simp] theorem op317 : dy 7372690397799598 (-48) + dy 4575971839155063 (-45) = dy 5497558138880013 (-45) :=
  dy_add (by dyN)
@[local simp] theorem op318 : PyNum.sqrt (dy 5497558138880013 (-45)) = dy 7036874417766408 (-49) :=
  dy_sqrtN (by norm_num) (by norm_num) (by norm_num) (by norm_num) (by norm_num) (by norm_num) (by norm_num) (by norm_num)
@[local simp] theorem op319 : dy (-5762260470357818) (-50) / dy 7036874417766408 (-49) = dy (-7375693402057999) (-54) :=
  dy_div (by norm_num) (by dyN)
@[local simp] theorem op320 : dy 0 0 / dy 7036874417766408 (-49) = dy 0 0 :=
  dy_div (by norm_num) (by dyE)
@[local simp] theorem op321 : dy 6420022596483072 (-49) / dy 7036874417766408 (-49) = dy 8217628923498323 (-53) :=
  dy_div (by norm_num) (by dyN)
@[local simp] theorem op322 : dy 0 0 - dy (-7977230956667921) (-54) = dy 7977230956667921 (-54) :=
  dy_sub (by dyE)
@[local simp] theorem op323 : dy 7977230956667921 (-54) * dy 7977230956667921 (-54) = dy 7065038968969816 (-55) :=
  dy_mul (by dyN)
@[local simp] theorem op324 : dy 7065038968969816 (-55) + dy 0 0 = dy 7065038968969816 (-55) :=
  dy_add (by dyE)
@[local simp] theorem op325 : dy 7065038968969816 (-55) + dy 5490658686761851 (-45) = dy 5497558138879986 (-45) :=
  dy_add (by dyN)
@[local simp] theorem op326 : dy 7977230956667921 (-54) / dy 7036874417766391 (-49) = dy 5105427812267476 (-57) :=
  dy_div (by norm_num) (by dyN)
@[local simp] theorem op327 : (dy 4951760157141521 (-92) < dy (-6905952845703950) (-48)) = False :=
  by rw [dy_lt]; norm_num
@[local simp] theorem op328 : (dy 4951760157141521 (-92) < dy 5629499534213120 (-98)) = False :=
  by rw [dy_lt]; norm_num
@[local simp] theorem op329 : dy 5232060514289610 (-47) * dy (-8165797141924927) (-55) = dy (-4743310721307332) (-49) :=
  dy_mul (by dyN)
@[local simp] theorem op330 : dy 5232060514289610 (-47) * dy 0 0 = dy 0 0 :=
  dy_mul (by dyE)
@[local simp] theorem op331 : dy 5232060514289610 (-47) * dy 8772805892610119 (-53) = dy 5095907175151362 (-47) :=
  dy_mul (by dyN)
@[local simp] theorem op332 : dy (-7977230956667848) (-54) + dy (-4743310721307332) (-49) = dy (-4992599188703202) (-49) :=
  dy_add (by dyN)
@[local simp] theorem op333 : dy 8905975168803741 (-43) + dy 5095907175151362 (-47) = dy 4612234683625351 (-42) :=
  dy_add (by dyN)
@[local simp] theorem op334 : dy 5232060514289610 (-47) - dy 4617948836659200 (-42) = dy (-8908893891175299) (-43) :=
  dy_sub (by dyN)
@[local simp] theorem op335 : (dy 0 0 < dy (-8908893891175299) (-43)) = False :=
  by rw [dy_lt]; norm_num

/-! ## Vectors -/

@[local simp] theorem mk_add (a b c d e f : D64) : (⟨a, b, c⟩ : V3 D64) + ⟨d, e, f⟩ = ⟨a + d, b + e, c + f⟩ := rfl
@[local simp] theorem mk_sub (a b c d e f : D64) : (⟨a, b, c⟩ : V3 D64) - ⟨d, e, f⟩ = ⟨a - d, b - e, c - f⟩ := rfl
@[local simp] theorem mk_neg (a b c : D64) : -(⟨a, b, c⟩ : V3 D64) = ⟨-a, -b, -c⟩ := rfl
@[local simp] theorem mk_smul (t a b c : D64) : t * (⟨a, b, c⟩ : V3 D64) = ⟨t * a, t * b, t * c⟩ := rfl
@[local simp] theorem mk_sdiv (t a b c : D64) : (⟨a, b, c⟩ : V3 D64) / t = ⟨a / t, b / t, c / t⟩ := rfl
@[local simp] theorem mk_dot (a b c d e f : D64) : dot (⟨a, b, c⟩ : V3 D64) ⟨d, e, f⟩ = a * d + b * e + c * f := rfl

theorem ltInf_dy (m e : ℤ) : PyNum.ltInf (dy m e) = true := rfl

/-! ## The run -/

/-- The ball. -/
noncomputable def ball : Lens D64 :=
  { position := ⟨dy 0 0, dy 0 0, dy 8796093022208000 (-43)⟩, normal := none, shape := "spherical", D := some (dy 7036874417766400 (-48)), w := none, h := none, f := none,
    surfaces := [.sphere ⟨⟨dy 0 0, dy 0 0, dy 8796093022208000 (-43)⟩, dy 7036874417766400 (-49), dy 7036874417766400 (-48)⟩], type := "normal", index := dy 6755399441055744 (-52) }

theorem ball_type : ball.type = "normal" := rfl
theorem ball_index : ball.index = dy 6755399441055744 (-52) := rfl

theorem ball_new : Lens.new ⟨0.0, 0.0, 1000.0⟩ none "spherical" (some 25.0) none none none "normal" 1.5 = .ok ball := by
  simp [Lens.new, Sphere.new, checkRAndD, need, bind, Except.bind, pure, Except.pure, ball]

theorem sphere0 (ray : Ray D64) (hp : ray.position = ⟨dy 8106479329266893 (-51), dy 0 0, dy 0 0⟩)
    (hd : ray.direction = ⟨dy 0 0, dy 0 0, dy 4503599627370496 (-52)⟩) :
    Sphere.testIntersect ⟨⟨dy 0 0, dy 0 0, dy 8796093022208000 (-43)⟩, dy 7036874417766400 (-49), dy 7036874417766400 (-48)⟩ ray =
      Hit6.two ⟨dy 8106479329266893 (-51), dy 0 0, dy 8901385599174888 (-43)⟩ ⟨dy 8106479329266893 (-51), dy 0 0, dy 8690800445241112 (-43)⟩
      ⟨dy (-5188146770730189) (-54), dy 0 0, dy (-8625567905126430) (-53)⟩ ⟨dy (-5188146770730189) (-54), dy 0 0, dy 8625567905126430 (-53)⟩ 2 := by
  simp [Sphere.testIntersect, hp, hd, Sphere.normal, unitVector, V3.norm, clippingFloor]

theorem dist0 : distanceBetween ⟨dy 8106479329266893 (-51), dy 0 0, dy 0 0⟩ ⟨dy 8106479329266893 (-51), dy 0 0, dy 8690800445241112 (-43)⟩ = dy 8690800445241112 (-43) := by
  simp [distanceBetween, V3.norm]

theorem lens0 (ray : Ray D64) (hp : ray.position = ⟨dy 8106479329266893 (-51), dy 0 0, dy 0 0⟩)
    (hd : ray.direction = ⟨dy 0 0, dy 0 0, dy 4503599627370496 (-52)⟩) :
    (Optic.lens ball).testIntersect ray = .ok ⟨true, some ⟨dy 8106479329266893 (-51), dy 0 0, dy 8690800445241112 (-43)⟩,
      some ⟨dy 5188146770730189 (-54), dy 0 0, dy (-8625567905126430) (-53)⟩, .bool true⟩ := by
  simp [Optic.testIntersect, Lens.testIntersect, ball, lensSphereStep, sphere0 ray hp hd, Hit6.one, Hit6.two, Hit6.miss, sphereUpdate,
    ltMin, ltInf_dy, need, bound, hp, distanceBetween, V3.norm, bind, Except.bind, pure, Except.pure]

theorem snell0 : snellDirection ⟨dy 0 0, dy 0 0, dy 4503599627370496 (-52)⟩ ⟨dy 5188146770730189 (-54), dy 0 0, dy (-8625567905126430) (-53)⟩ (dy 4503599627370496 (-52)) (dy 6755399441055744 (-52)) =
    .ok ⟨dy (-7117611354047491) (-56), dy 0 0, dy 8963150662528252 (-53)⟩ := by
  simp [snellDirection]

theorem pass0 (s : RunState D64) (hp : s.ray.position = ⟨dy 8106479329266893 (-51), dy 0 0, dy 0 0⟩)
    (hd : s.ray.direction = ⟨dy 0 0, dy 0 0, dy 4503599627370496 (-52)⟩) (hr : s.remaining = dy 4617948836659200 (-42)) (ht : s.ray.type = "normal")
    (hb : s.ray.blocked = false) : ∃ s', runStep (1050.0 : D64) [.lens ball] s = .next s' ∧
      s'.ray.position = ⟨dy 8106479329266893 (-51), dy 0 0, dy 8690800445241112 (-43)⟩ ∧
      s'.ray.direction = ⟨dy (-7117611354047491) (-56), dy 0 0, dy 8963150662528252 (-53)⟩ ∧ s'.remaining = dy 8721555649236608 (-47) ∧ s'.ray.type = "normal" ∧
      s'.ray.blocked = false ∧ s'.interactions = s.interactions + 1 ∧
      s'.ray.pointHistory = s.ray.pointHistory ++ [⟨dy 8106479329266893 (-51), dy 0 0, dy 8690800445241112 (-43)⟩] := by
  have hm := lens0 s.ray hp hd
  have hd0 := dist0
  have hs0 := snell0
  simp [runStep, List.foldlM, scanStep, Optic.skipped, hm, bind, Except.bind, pure, Except.pure, need, hp, hd0, hr,
    clippingFloor, ltMin, ltInf_dy, Ray.fly, hd, ht, Optic.doIntersect, Lens.doIntersect, ball_type, ball_index, Ray.refract,
    hb, Sfo.truthy, hs0, Functor.map, Except.map]

theorem sphere1 (ray : Ray D64) (hp : ray.position = ⟨dy 8106479329266893 (-51), dy 0 0, dy 8690800445241112 (-43)⟩)
    (hd : ray.direction = ⟨dy (-7117611354047491) (-56), dy 0 0, dy 8963150662528252 (-53)⟩) :
    Sphere.testIntersect ⟨⟨dy 0 0, dy 0 0, dy 8796093022208000 (-43)⟩, dy 7036874417766400 (-49), dy 7036874417766400 (-48)⟩ ray =
      Hit6.two ⟨dy 5298602931534702 (-52), dy 0 0, dy 8905556074577637 (-43)⟩ ⟨dy 8106479329266553 (-51), dy 0 0, dy 8690800445241125 (-43)⟩
      ⟨dy (-6782211752364408) (-56), dy 0 0, dy (-8967213250120649) (-53)⟩ ⟨dy (-5188146770730577) (-54), dy 0 0, dy 8625567905126372 (-53)⟩ 2 := by
  simp [Sphere.testIntersect, hp, hd, Sphere.normal, unitVector, V3.norm, clippingFloor]

theorem dist1 : distanceBetween ⟨dy 8106479329266893 (-51), dy 0 0, dy 8690800445241112 (-43)⟩ ⟨dy 8106479329266553 (-51), dy 0 0, dy 8690800445241125 (-43)⟩ = dy 7356442425427694 (-92) := by
  simp [distanceBetween, V3.norm]

theorem lens1 (ray : Ray D64) (hp : ray.position = ⟨dy 8106479329266893 (-51), dy 0 0, dy 8690800445241112 (-43)⟩)
    (hd : ray.direction = ⟨dy (-7117611354047491) (-56), dy 0 0, dy 8963150662528252 (-53)⟩) :
    (Optic.lens ball).testIntersect ray = .ok ⟨true, some ⟨dy 8106479329266553 (-51), dy 0 0, dy 8690800445241125 (-43)⟩,
      some ⟨dy 5188146770730577 (-54), dy 0 0, dy (-8625567905126372) (-53)⟩, .bool true⟩ := by
  simp [Optic.testIntersect, Lens.testIntersect, ball, lensSphereStep, sphere1 ray hp hd, Hit6.one, Hit6.two, Hit6.miss, sphereUpdate,
    ltMin, ltInf_dy, need, bound, hp, distanceBetween, V3.norm, bind, Except.bind, pure, Except.pure]

theorem snell1 : snellDirection ⟨dy (-7117611354047491) (-56), dy 0 0, dy 8963150662528252 (-53)⟩ ⟨dy 5188146770730577 (-54), dy 0 0, dy (-8625567905126372) (-53)⟩ (dy 4503599627370496 (-52)) (dy 6755399441055744 (-52)) =
    .ok ⟨dy (-5874649124949120) (-55), dy 0 0, dy 8886656824603816 (-53)⟩ := by
  simp [snellDirection]

theorem pass1 (s : RunState D64) (hp : s.ray.position = ⟨dy 8106479329266893 (-51), dy 0 0, dy 8690800445241112 (-43)⟩)
    (hd : s.ray.direction = ⟨dy (-7117611354047491) (-56), dy 0 0, dy 8963150662528252 (-53)⟩) (hr : s.remaining = dy 8721555649236608 (-47)) (ht : s.ray.type = "normal")
    (hb : s.ray.blocked = false) : ∃ s', runStep (1050.0 : D64) [.lens ball] s = .next s' ∧
      s'.ray.position = ⟨dy 8106479329266563 (-51), dy 0 0, dy 8690800445241125 (-43)⟩ ∧
      s'.ray.direction = ⟨dy (-5874649124949120) (-55), dy 0 0, dy 8886656824603816 (-53)⟩ ∧ s'.remaining = dy 8721555649236399 (-47) ∧ s'.ray.type = "normal" ∧
      s'.ray.blocked = false ∧ s'.interactions = s.interactions + 1 ∧
      s'.ray.pointHistory = s.ray.pointHistory ++ [⟨dy 8106479329266563 (-51), dy 0 0, dy 8690800445241125 (-43)⟩] := by
  have hm := lens1 s.ray hp hd
  have hd1 := dist1
  have hs1 := snell1
  simp [runStep, List.foldlM, scanStep, Optic.skipped, hm, bind, Except.bind, pure, Except.pure, need, hp, hd1, hr,
    clippingFloor, ltMin, ltInf_dy, Ray.fly, hd, ht, Optic.doIntersect, Lens.doIntersect, ball_type, ball_index, Ray.refract,
    hb, Sfo.truthy, hs1, Functor.map, Except.map]

theorem sphere2 (ray : Ray D64) (hp : ray.position = ⟨dy 8106479329266563 (-51), dy 0 0, dy 8690800445241125 (-43)⟩)
    (hd : ray.direction = ⟨dy (-5874649124949120) (-55), dy 0 0, dy 8886656824603816 (-53)⟩) :
    Sphere.testIntersect ⟨⟨dy 0 0, dy 0 0, dy 8796093022208000 (-43)⟩, dy 7036874417766400 (-49), dy 7036874417766400 (-48)⟩ ray =
      Hit6.one ⟨dy (-7977230956667896) (-54), dy 0 0, dy 8905975168803741 (-43)⟩
      ⟨dy 5105427812267460 (-57), dy 0 0, dy (-9001545449123114) (-53)⟩ 1 := by
  simp [Sphere.testIntersect, hp, hd, Sphere.normal, unitVector, V3.norm, clippingFloor]

theorem dist2 : distanceBetween ⟨dy 8106479329266563 (-51), dy 0 0, dy 8690800445241125 (-43)⟩ ⟨dy (-7977230956667896) (-54), dy 0 0, dy 8905975168803741 (-43)⟩ = dy 6978990269893578 (-48) := by
  simp [distanceBetween, V3.norm]

theorem lens2 (ray : Ray D64) (hp : ray.position = ⟨dy 8106479329266563 (-51), dy 0 0, dy 8690800445241125 (-43)⟩)
    (hd : ray.direction = ⟨dy (-5874649124949120) (-55), dy 0 0, dy 8886656824603816 (-53)⟩) :
    (Optic.lens ball).testIntersect ray = .ok ⟨true, some ⟨dy (-7977230956667896) (-54), dy 0 0, dy 8905975168803741 (-43)⟩,
      some ⟨dy (-5105427812267460) (-57), dy 0 0, dy 9001545449123114 (-53)⟩, .bool false⟩ := by
  simp [Optic.testIntersect, Lens.testIntersect, ball, lensSphereStep, sphere2 ray hp hd, Hit6.one, Hit6.two, Hit6.miss, sphereUpdate,
    ltMin, ltInf_dy, need, bound, hp, distanceBetween, V3.norm, bind, Except.bind, pure, Except.pure]

theorem snell2 : snellDirection ⟨dy (-5874649124949120) (-55), dy 0 0, dy 8886656824603816 (-53)⟩ ⟨dy 5105427812267460 (-57), dy 0 0, dy (-9001545449123114) (-53)⟩ (dy 6755399441055744 (-52)) (dy 4503599627370496 (-52)) =
    .ok ⟨dy (-8165797141924927) (-55), dy 0 0, dy 8772805892610119 (-53)⟩ := by
  simp [snellDirection]

theorem pass2 (s : RunState D64) (hp : s.ray.position = ⟨dy 8106479329266563 (-51), dy 0 0, dy 8690800445241125 (-43)⟩)
    (hd : s.ray.direction = ⟨dy (-5874649124949120) (-55), dy 0 0, dy 8886656824603816 (-53)⟩) (hr : s.remaining = dy 8721555649236399 (-47)) (ht : s.ray.type = "normal")
    (hb : s.ray.blocked = false) : ∃ s', runStep (1050.0 : D64) [.lens ball] s = .next s' ∧
      s'.ray.position = ⟨dy (-7977230956667848) (-54), dy 0 0, dy 8905975168803741 (-43)⟩ ∧
      s'.ray.direction = ⟨dy (-8165797141924927) (-55), dy 0 0, dy 8772805892610119 (-53)⟩ ∧ s'.remaining = dy 5232060514289610 (-47) ∧ s'.ray.type = "normal" ∧
      s'.ray.blocked = false ∧ s'.interactions = s.interactions + 1 ∧
      s'.ray.pointHistory = s.ray.pointHistory ++ [⟨dy (-7977230956667848) (-54), dy 0 0, dy 8905975168803741 (-43)⟩] := by
  have hm := lens2 s.ray hp hd
  have hd2 := dist2
  have hs2 := snell2
  simp [runStep, List.foldlM, scanStep, Optic.skipped, hm, bind, Except.bind, pure, Except.pure, need, hp, hd2, hr,
    clippingFloor, ltMin, ltInf_dy, Ray.fly, hd, ht, Optic.doIntersect, Lens.doIntersect, ball_type, ball_index, Ray.refract,
    hb, Sfo.truthy, hs2, Functor.map, Except.map]

theorem sphere3 (ray : Ray D64) (hp : ray.position = ⟨dy (-7977230956667848) (-54), dy 0 0, dy 8905975168803741 (-43)⟩)
    (hd : ray.direction = ⟨dy (-8165797141924927) (-55), dy 0 0, dy 8772805892610119 (-53)⟩) :
    Sphere.testIntersect ⟨⟨dy 0 0, dy 0 0, dy 8796093022208000 (-43)⟩, dy 7036874417766400 (-49), dy 7036874417766400 (-48)⟩ ray =
      Hit6.miss 0 := by
  simp [Sphere.testIntersect, hp, hd, Sphere.normal, unitVector, V3.norm, clippingFloor]

theorem lens3 (ray : Ray D64) (hp : ray.position = ⟨dy (-7977230956667848) (-54), dy 0 0, dy 8905975168803741 (-43)⟩)
    (hd : ray.direction = ⟨dy (-8165797141924927) (-55), dy 0 0, dy 8772805892610119 (-53)⟩) :
    (Optic.lens ball).testIntersect ray = .ok ⟨false, none, none, .bool true⟩ := by
  simp [Optic.testIntersect, Lens.testIntersect, ball, lensSphereStep, sphere3 ray hp hd, Hit6.one, Hit6.two, Hit6.miss, sphereUpdate,
    ltMin, ltInf_dy, need, bound, hp, distanceBetween, V3.norm, bind, Except.bind, pure, Except.pure]

theorem pass3 (s : RunState D64) (hp : s.ray.position = ⟨dy (-7977230956667848) (-54), dy 0 0, dy 8905975168803741 (-43)⟩)
    (hd : s.ray.direction = ⟨dy (-8165797141924927) (-55), dy 0 0, dy 8772805892610119 (-53)⟩) (hr : s.remaining = dy 5232060514289610 (-47)) (ht : s.ray.type = "normal")
    (hb : s.ray.blocked = false) : ∃ s', runStep (1050.0 : D64) [.lens ball] s = .next s' ∧
      s'.ray.position = ⟨dy (-4992599188703202) (-49), dy 0 0, dy 4612234683625351 (-42)⟩ ∧ s'.ray.direction = ⟨dy (-8165797141924927) (-55), dy 0 0, dy 8772805892610119 (-53)⟩ ∧ s'.remaining = dy (-8908893891175299) (-43) ∧
      s'.interactions = s.interactions ∧ s'.ray.pointHistory = s.ray.pointHistory ++ [⟨dy (-4992599188703202) (-49), dy 0 0, dy 4612234683625351 (-42)⟩] := by
  have hm := lens3 s.ray hp hd
  simp [runStep, List.foldlM, scanStep, Optic.skipped, hm, bind, Except.bind, pure, Except.pure, need, hp, hr,
    clippingFloor, ltMin, ltInf_dy, Ray.fly, hd]

theorem start_position : (⟨3.6, 0.0, 0.0⟩ : V3 D64) = ⟨dy 8106479329266893 (-51), dy 0 0, dy 0 0⟩ := by simp
theorem start_direction : unitVector (⟨0.0, 0.0, 1.0⟩ : V3 D64) = ⟨dy 0 0, dy 0 0, dy 4503599627370496 (-52)⟩ := by simp [unitVector, V3.norm]
theorem start_budget : (1050.0 : D64) = dy 4617948836659200 (-42) := by simp

theorem continues0 (s : RunState D64) (hr : s.remaining = dy 4617948836659200 (-42)) (hb : s.ray.blocked = false) :
    s.continues none = true := by simp [RunState.continues, hr, hb]

theorem continues1 (s : RunState D64) (hr : s.remaining = dy 8721555649236608 (-47)) (hb : s.ray.blocked = false) :
    s.continues none = true := by simp [RunState.continues, hr, hb]

theorem continues2 (s : RunState D64) (hr : s.remaining = dy 8721555649236399 (-47)) (hb : s.ray.blocked = false) :
    s.continues none = true := by simp [RunState.continues, hr, hb]

theorem continues3 (s : RunState D64) (hr : s.remaining = dy 5232060514289610 (-47)) (hb : s.ray.blocked = false) :
    s.continues none = true := by simp [RunState.continues, hr, hb]

theorem stops (s : RunState D64) (hr : s.remaining = dy (-8908893891175299) (-43)) : s.continues none = false := by
  simp [RunState.continues, hr]

end GlassBall64

end Optics
