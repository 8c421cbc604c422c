import Verif.Lemmas.Dyadic64

/-!
# A ray and a ball mirror, computed with doubles

A mirror ball of diameter 25 at `(0, 0, 400)`, the size of those in script_testConvexSphereMirror.py:22-30, and a ray
that starts at `(10.8, 0, 0)` along the z axis.  `dy m e` is the double `m * 2^e`.  The first part lists every rounded
operation of the run, the second part the results of the functions.
-/

namespace Optics
open V3

namespace LeakyBall

/-! ## Operations -/

@[local simp] theorem op0 : (0.0 : D64) = dy 0 0 :=
  dy_lit (by dyE)
@[local simp] theorem op1 : (1.0 : D64) = dy 4503599627370496 (-52) :=
  dy_lit (by dyE)
@[local simp] theorem op2 : (2.0 : D64) = dy 4503599627370496 (-51) :=
  dy_lit (by dyE)
@[local simp] theorem op3 : (10.8 : D64) = dy 6079859496950170 (-49) :=
  dy_lit (by dyN)
@[local simp] theorem op4 : (25.0 : D64) = dy 7036874417766400 (-48) :=
  dy_lit (by dyE)
@[local simp] theorem op5 : (400.0 : D64) = dy 7036874417766400 (-44) :=
  dy_lit (by dyE)
@[local simp] theorem op6 : (1e-12 : D64) = dy 4951760157141521 (-92) :=
  dy_lit (by dyN)
@[local simp] theorem op7 : dy 7036874417766400 (-48) / dy 4503599627370496 (-51) = dy 7036874417766400 (-49) :=
  dy_div (by norm_num) (by dyE)
@[local simp] theorem op8 : dy 0 0 * dy 0 0 = dy 0 0 :=
  dy_mul (by dyE)
@[local simp] theorem op9 : dy 0 0 + dy 0 0 = dy 0 0 :=
  dy_add (by dyE)
@[local simp] theorem op10 : dy 4503599627370496 (-52) * dy 4503599627370496 (-52) = dy 4503599627370496 (-52) :=
  dy_mul (by dyE)
@[local simp] theorem op11 : dy 0 0 + dy 4503599627370496 (-52) = dy 4503599627370496 (-52) :=
  dy_add (by dyE)
@[local simp] theorem op12 : PyNum.sqrt (dy 4503599627370496 (-52)) = dy 4503599627370496 (-52) :=
  dy_sqrtE (by norm_num) (by norm_num) (by norm_num) (by norm_num) (by norm_num) (by norm_num)
@[local simp] theorem op13 : dy 0 0 / dy 4503599627370496 (-52) = dy 0 0 :=
  dy_div (by norm_num) (by dyE)
@[local simp] theorem op14 : dy 4503599627370496 (-52) / dy 4503599627370496 (-52) = dy 4503599627370496 (-52) :=
  dy_div (by norm_num) (by dyE)
@[local simp] theorem op15 : (dy 0 0 < dy 7036874417766400 (-44)) = True :=
  by rw [dy_lt]; norm_num
@[local simp] theorem op16 : dy 0 0 - dy 6079859496950170 (-49) = dy (-6079859496950170) (-49) :=
  dy_sub (by dyE)
@[local simp] theorem op17 : dy 0 0 - dy 0 0 = dy 0 0 :=
  dy_sub (by dyE)
@[local simp] theorem op18 : dy 7036874417766400 (-44) - dy 0 0 = dy 7036874417766400 (-44) :=
  dy_sub (by dyE)
@[local simp] theorem op19 : dy 0 0 * dy (-6079859496950170) (-49) = dy 0 0 :=
  dy_mul (by dyE)
@[local simp] theorem op20 : dy 4503599627370496 (-52) * dy 7036874417766400 (-44) = dy 7036874417766400 (-44) :=
  dy_mul (by dyE)
@[local simp] theorem op21 : dy 0 0 + dy 7036874417766400 (-44) = dy 7036874417766400 (-44) :=
  dy_add (by dyE)
@[local simp] theorem op22 : dy (-6079859496950170) (-49) * dy (-6079859496950170) (-49) = dy 8207810320882730 (-46) :=
  dy_mul (by dyN)
@[local simp] theorem op23 : dy 8207810320882730 (-46) + dy 0 0 = dy 8207810320882730 (-46) :=
  dy_add (by dyE)
@[local simp] theorem op24 : dy 7036874417766400 (-44) * dy 7036874417766400 (-44) = dy 5497558138880000 (-35) :=
  dy_mul (by dyE)
@[local simp] theorem op25 : dy 8207810320882730 (-46) + dy 5497558138880000 (-35) = dy 5501565858763244 (-35) :=
  dy_add (by dyN)
@[local simp] theorem op26 : dy 7036874417766400 (-49) * dy 7036874417766400 (-49) = dy 5497558138880000 (-45) :=
  dy_mul (by dyE)
@[local simp] theorem op27 : dy 5501565858763244 (-35) - dy 5497558138880000 (-45) = dy 5496197149643244 (-35) :=
  dy_sub (by dyE)
@[local simp] theorem op28 : dy 5497558138880000 (-35) - dy 5496197149643244 (-35) = dy 5574611913752576 (-47) :=
  dy_sub (by dyE)
@[local simp] theorem op29 : (dy 0 0 < dy 5574611913752576 (-47)) = True :=
  by rw [dy_lt]; norm_num
@[local simp] theorem op30 : PyNum.sqrt (dy 5574611913752576 (-47)) = dy 7086017236432780 (-50) :=
  dy_sqrtN (by norm_num) (by norm_num) (by norm_num) (by norm_num) (by norm_num) (by norm_num) (by norm_num) (by norm_num)
@[local simp] theorem op31 : dy 7036874417766400 (-44) - dy 7086017236432780 (-50) = dy 6926155398447138 (-44) :=
  dy_sub (by dyN)
@[local simp] theorem op32 : dy 7036874417766400 (-44) + dy 7086017236432780 (-50) = dy 7147593437085662 (-44) :=
  dy_add (by dyN)
@[local simp] theorem op33 : dy 6926155398447138 (-44) * dy 0 0 = dy 0 0 :=
  dy_mul (by dyE)
@[local simp] theorem op34 : dy 6926155398447138 (-44) * dy 4503599627370496 (-52) = dy 6926155398447138 (-44) :=
  dy_mul (by dyE)
@[local simp] theorem op35 : dy 6079859496950170 (-49) + dy 0 0 = dy 6079859496950170 (-49) :=
  dy_add (by dyE)
@[local simp] theorem op36 : dy 0 0 + dy 6926155398447138 (-44) = dy 6926155398447138 (-44) :=
  dy_add (by dyE)
@[local simp] theorem op37 : dy 7147593437085662 (-44) * dy 0 0 = dy 0 0 :=
  dy_mul (by dyE)
@[local simp] theorem op38 : dy 7147593437085662 (-44) * dy 4503599627370496 (-52) = dy 7147593437085662 (-44) :=
  dy_mul (by dyE)
@[local simp] theorem op39 : dy 0 0 + dy 7147593437085662 (-44) = dy 7147593437085662 (-44) :=
  dy_add (by dyE)
@[local simp] theorem op40 : dy 7036874417766400 (-44) - dy 6926155398447138 (-44) = dy 7086017236432768 (-50) :=
  dy_sub (by dyE)
@[local simp] theorem op41 : dy 7086017236432768 (-50) * dy 7086017236432768 (-50) = dy 5574611913752557 (-47) :=
  dy_mul (by dyN)
@[local simp] theorem op42 : dy 8207810320882730 (-46) + dy 5574611913752557 (-47) = dy 5497558138879504 (-45) :=
  dy_add (by dyN)
@[local simp] theorem op43 : PyNum.sqrt (dy 5497558138879504 (-45)) = dy 7036874417766083 (-49) :=
  dy_sqrtN (by norm_num) (by norm_num) (by norm_num) (by norm_num) (by norm_num) (by norm_num) (by norm_num) (by norm_num)
@[local simp] theorem op44 : dy (-6079859496950170) (-49) / dy 7036874417766083 (-49) = dy (-7782220156096568) (-53) :=
  dy_div (by norm_num) (by dyN)
@[local simp] theorem op45 : dy 0 0 / dy 7036874417766083 (-49) = dy 0 0 :=
  dy_div (by norm_num) (by dyE)
@[local simp] theorem op46 : dy 7086017236432768 (-50) / dy 7036874417766083 (-49) = dy 4535051031317176 (-53) :=
  dy_div (by norm_num) (by dyN)
@[local simp] theorem op47 : dy 7036874417766400 (-44) - dy 7147593437085662 (-44) = dy (-7086017236432768) (-50) :=
  dy_sub (by dyE)
@[local simp] theorem op48 : dy (-7086017236432768) (-50) * dy (-7086017236432768) (-50) = dy 5574611913752557 (-47) :=
  dy_mul (by dyN)
@[local simp] theorem op49 : dy (-7086017236432768) (-50) / dy 7036874417766083 (-49) = dy (-4535051031317176) (-53) :=
  dy_div (by norm_num) (by dyN)
@[local simp] theorem op50 : (dy 4951760157141521 (-92) < dy 6926155398447138 (-44)) = True :=
  by rw [dy_lt]; norm_num
@[local simp] theorem op51 : (dy 4951760157141521 (-92) < dy 7147593437085662 (-44)) = True :=
  by rw [dy_lt]; norm_num
@[local simp] theorem op52 : (dy 6926155398447138 (-44) < dy 7147593437085662 (-44)) = True :=
  by rw [dy_lt]; norm_num
@[local simp] theorem op53 : dy 6079859496950170 (-49) - dy 6079859496950170 (-49) = dy 0 0 :=
  dy_sub (by dyE)
@[local simp] theorem op54 : dy 0 0 - dy 7147593437085662 (-44) = dy (-7147593437085662) (-44) :=
  dy_sub (by dyE)
@[local simp] theorem op55 : dy (-7147593437085662) (-44) * dy (-7147593437085662) (-44) = dy 5671917595803103 (-35) :=
  dy_mul (by dyN)
@[local simp] theorem op56 : dy 0 0 + dy 5671917595803103 (-35) = dy 5671917595803103 (-35) :=
  dy_add (by dyE)
@[local simp] theorem op57 : PyNum.sqrt (dy 5671917595803103 (-35)) = dy 7147593437085662 (-44) :=
  dy_sqrtN (by norm_num) (by norm_num) (by norm_num) (by norm_num) (by norm_num) (by norm_num) (by norm_num) (by norm_num)
@[local simp] theorem op58 : -(dy (-7782220156096568) (-53)) = dy 7782220156096568 (-53) :=
  dy_neg (by norm_num)
@[local simp] theorem op59 : -(dy 0 0) = dy 0 0 :=
  dy_neg (by norm_num)
@[local simp] theorem op60 : -(dy (-4535051031317176) (-53)) = dy 4535051031317176 (-53) :=
  dy_neg (by norm_num)
@[local simp] theorem op61 : dy 0 0 - dy 6926155398447138 (-44) = dy (-6926155398447138) (-44) :=
  dy_sub (by dyE)
@[local simp] theorem op62 : dy (-6926155398447138) (-44) * dy (-6926155398447138) (-44) = dy 5325920660430409 (-35) :=
  dy_mul (by dyN)
@[local simp] theorem op63 : dy 0 0 + dy 5325920660430409 (-35) = dy 5325920660430409 (-35) :=
  dy_add (by dyE)
@[local simp] theorem op64 : PyNum.sqrt (dy 5325920660430409 (-35)) = dy 6926155398447138 (-44) :=
  dy_sqrtN (by norm_num) (by norm_num) (by norm_num) (by norm_num) (by norm_num) (by norm_num) (by norm_num) (by norm_num)
@[local simp] theorem op65 : -(dy 4535051031317176 (-53)) = dy (-4535051031317176) (-53) :=
  dy_neg (by norm_num)
@[local simp] theorem op66 : (dy 7036874417766400 (-44) < dy 6926155398447138 (-44)) = False :=
  by rw [dy_lt]; norm_num
@[local simp] theorem op67 : dy 7782220156096568 (-53) * dy 7782220156096568 (-53) = dy 6723838214867738 (-53) :=
  dy_mul (by dyN)
@[local simp] theorem op68 : dy 6723838214867738 (-53) + dy 0 0 = dy 6723838214867738 (-53) :=
  dy_add (by dyE)
@[local simp] theorem op69 : dy (-4535051031317176) (-53) * dy (-4535051031317176) (-53) = dy 4566722079746506 (-54) :=
  dy_mul (by dyN)
@[local simp] theorem op70 : dy 6723838214867738 (-53) + dy 4566722079746506 (-54) = dy 9007199254740991 (-53) :=
  dy_add (by dyE)
@[local simp] theorem op71 : PyNum.sqrt (dy 9007199254740991 (-53)) = dy 9007199254740991 (-53) :=
  dy_sqrtN (by norm_num) (by norm_num) (by norm_num) (by norm_num) (by norm_num) (by norm_num) (by norm_num) (by norm_num)
@[local simp] theorem op72 : dy 7782220156096568 (-53) / dy 9007199254740991 (-53) = dy 7782220156096569 (-53) :=
  dy_div (by norm_num) (by dyN)
@[local simp] theorem op73 : dy 0 0 / dy 9007199254740991 (-53) = dy 0 0 :=
  dy_div (by norm_num) (by dyE)
@[local simp] theorem op74 : dy (-4535051031317176) (-53) / dy 9007199254740991 (-53) = dy (-4535051031317177) (-53) :=
  dy_div (by norm_num) (by dyN)
@[local simp] theorem op75 : dy 0 0 * dy 7782220156096569 (-53) = dy 0 0 :=
  dy_mul (by dyE)
@[local simp] theorem op76 : dy 4503599627370496 (-52) * dy (-4535051031317177) (-53) = dy (-4535051031317177) (-53) :=
  dy_mul (by dyE)
@[local simp] theorem op77 : dy 0 0 + dy (-4535051031317177) (-53) = dy (-4535051031317177) (-53) :=
  dy_add (by dyE)
@[local simp] theorem op78 : dy 4503599627370496 (-51) * dy (-4535051031317177) (-53) = dy (-4535051031317177) (-52) :=
  dy_mul (by dyE)
@[local simp] theorem op79 : dy (-4535051031317177) (-52) * dy 7782220156096569 (-53) = dy (-7836568182116436) (-53) :=
  dy_mul (by dyN)
@[local simp] theorem op80 : dy (-4535051031317177) (-52) * dy 0 0 = dy 0 0 :=
  dy_mul (by dyE)
@[local simp] theorem op81 : dy (-4535051031317177) (-52) * dy (-4535051031317177) (-53) = dy 4566722079746508 (-53) :=
  dy_mul (by dyN)
@[local simp] theorem op82 : dy 0 0 - dy (-7836568182116436) (-53) = dy 7836568182116436 (-53) :=
  dy_sub (by dyE)
@[local simp] theorem op83 : dy 4503599627370496 (-52) - dy 4566722079746508 (-53) = dy 8880954349988968 (-54) :=
  dy_sub (by dyE)
@[local simp] theorem op84 : dy 7836568182116436 (-53) * dy 7836568182116436 (-53) = dy 6818079531285515 (-53) :=
  dy_mul (by dyN)
@[local simp] theorem op85 : dy 6818079531285515 (-53) + dy 0 0 = dy 6818079531285515 (-53) :=
  dy_add (by dyE)
@[local simp] theorem op86 : dy 8880954349988968 (-54) * dy 8880954349988968 (-54) = dy 8756478893821914 (-55) :=
  dy_mul (by dyN)
@[local simp] theorem op87 : dy 6818079531285515 (-53) + dy 8756478893821914 (-55) = dy 4503599627370497 (-52) :=
  dy_add (by dyN)
@[local simp] theorem op88 : PyNum.sqrt (dy 4503599627370497 (-52)) = dy 4503599627370496 (-52) :=
  dy_sqrtP (by norm_num) (by norm_num) (by norm_num) (by norm_num) (by norm_num)
@[local simp] theorem op89 : dy 7836568182116436 (-53) / dy 4503599627370496 (-52) = dy 7836568182116436 (-53) :=
  dy_div (by norm_num) (by dyE)
@[local simp] theorem op90 : dy 8880954349988968 (-54) / dy 4503599627370496 (-52) = dy 8880954349988968 (-54) :=
  dy_div (by norm_num) (by dyE)
@[local simp] theorem op91 : (dy 0 0 < dy 7086017236432768 (-50)) = True :=
  by rw [dy_lt]; norm_num
@[local simp] theorem op92 : dy 7836568182116436 (-53) * dy (-6079859496950170) (-49) = dy (-5289683522928595) (-49) :=
  dy_mul (by dyN)
@[local simp] theorem op93 : dy (-5289683522928595) (-49) + dy 0 0 = dy (-5289683522928595) (-49) :=
  dy_add (by dyE)
@[local simp] theorem op94 : dy 8880954349988968 (-54) * dy 7086017236432768 (-50) = dy 6986699618848835 (-51) :=
  dy_mul (by dyN)
@[local simp] theorem op95 : dy (-5289683522928595) (-49) + dy 6986699618848835 (-51) = dy (-7086017236432772) (-50) :=
  dy_add (by dyT)
@[local simp] theorem op96 : dy 5497558138879504 (-45) - dy 5497558138880000 (-45) = dy (-8725724278030336) (-89) :=
  dy_sub (by dyE)
@[local simp] theorem op97 : dy (-7086017236432772) (-50) * dy (-7086017236432772) (-50) = dy 5574611913752563 (-47) :=
  dy_mul (by dyN)
@[local simp] theorem op98 : dy 5574611913752563 (-47) - dy (-8725724278030336) (-89) = dy 5574611913754547 (-47) :=
  dy_sub (by dyE)
@[local simp] theorem op99 : (dy 0 0 < dy 5574611913754547 (-47)) = True :=
  by rw [dy_lt]; norm_num
@[local simp] theorem op100 : PyNum.sqrt (dy 5574611913754547 (-47)) = dy 7086017236434033 (-50) :=
  dy_sqrtN (by norm_num) (by norm_num) (by norm_num) (by norm_num) (by norm_num) (by norm_num) (by norm_num) (by norm_num)
@[local simp] theorem op101 : dy (-7086017236432772) (-50) - dy 7086017236434033 (-50) = dy (-7086017236433402) (-49) :=
  dy_sub (by dyT)
@[local simp] theorem op102 : dy (-7086017236432772) (-50) + dy 7086017236434033 (-50) = dy 5545936650502144 (-92) :=
  dy_add (by dyE)
@[local simp] theorem op103 : dy (-7086017236433402) (-49) * dy 7836568182116436 (-53) = dy (-6165074807658337) (-49) :=
  dy_mul (by dyN)
@[local simp] theorem op104 : dy (-7086017236433402) (-49) * dy 0 0 = dy 0 0 :=
  dy_mul (by dyE)
@[local simp] theorem op105 : dy (-7086017236433402) (-49) * dy 8880954349988968 (-54) = dy (-6986699618849460) (-50) :=
  dy_mul (by dyN)
@[local simp] theorem op106 : dy 6079859496950170 (-49) + dy (-6165074807658337) (-49) = dy (-5453779885322688) (-55) :=
  dy_add (by dyE)
@[local simp] theorem op107 : dy 6926155398447138 (-44) + dy (-6986699618849460) (-50) = dy 6816988216902615 (-44) :=
  dy_add (by dyN)
@[local simp] theorem op108 : dy 5545936650502144 (-92) * dy 7836568182116436 (-53) = dy 4825152576976966 (-92) :=
  dy_mul (by dyN)
@[local simp] theorem op109 : dy 5545936650502144 (-92) * dy 0 0 = dy 0 0 :=
  dy_mul (by dyE)
@[local simp] theorem op110 : dy 5545936650502144 (-92) * dy 8880954349988968 (-54) = dy 5468204802410200 (-93) :=
  dy_mul (by dyN)
@[local simp] theorem op111 : dy 6079859496950170 (-49) + dy 4825152576976966 (-92) = dy 6079859496950719 (-49) :=
  dy_add (by dyN)
@[local simp] theorem op112 : dy 6926155398447138 (-44) + dy 5468204802410200 (-93) = dy 6926155398447148 (-44) :=
  dy_add (by dyN)
@[local simp] theorem op113 : dy 0 0 - dy (-5453779885322688) (-55) = dy 5453779885322688 (-55) :=
  dy_sub (by dyE)
@[local simp] theorem op114 : dy 7036874417766400 (-44) - dy 6816988216902615 (-44) = dy 7036358427641120 (-49) :=
  dy_sub (by dyE)
@[local simp] theorem op115 : dy 5453779885322688 (-55) * dy 5453779885322688 (-55) = dy 6604431454515581 (-58) :=
  dy_mul (by dyN)
@[local simp] theorem op116 : dy 6604431454515581 (-58) + dy 0 0 = dy 6604431454515581 (-58) :=
  dy_add (by dyE)
@[local simp] theorem op117 : dy 7036358427641120 (-49) * dy 7036358427641120 (-49) = dy 5496751933868473 (-45) :=
  dy_mul (by dyN)
@[local simp] theorem op118 : dy 6604431454515581 (-58) + dy 5496751933868473 (-45) = dy 5497558138880011 (-45) :=
  dy_add (by dyN)
@[local simp] theorem op119 : PyNum.sqrt (dy 5497558138880011 (-45)) = dy 7036874417766407 (-49) :=
  dy_sqrtN (by norm_num) (by norm_num) (by norm_num) (by norm_num) (by norm_num) (by norm_num) (by norm_num) (by norm_num)
@[local simp] theorem op120 : dy 5453779885322688 (-55) / dy 7036874417766407 (-49) = dy 6980838253213034 (-59) :=
  dy_div (by norm_num) (by dyN)
@[local simp] theorem op121 : dy 0 0 / dy 7036874417766407 (-49) = dy 0 0 :=
  dy_div (by norm_num) (by dyE)
@[local simp] theorem op122 : dy 7036358427641120 (-49) / dy 7036874417766407 (-49) = dy 9006538787380625 (-53) :=
  dy_div (by norm_num) (by dyN)
@[local simp] theorem op123 : dy 0 0 - dy 6079859496950719 (-49) = dy (-6079859496950719) (-49) :=
  dy_sub (by dyE)
@[local simp] theorem op124 : dy 7036874417766400 (-44) - dy 6926155398447148 (-44) = dy 7086017236432128 (-50) :=
  dy_sub (by dyE)
@[local simp] theorem op125 : dy (-6079859496950719) (-49) * dy (-6079859496950719) (-49) = dy 8207810320884212 (-46) :=
  dy_mul (by dyN)
@[local simp] theorem op126 : dy 8207810320884212 (-46) + dy 0 0 = dy 8207810320884212 (-46) :=
  dy_add (by dyE)
@[local simp] theorem op127 : dy 7086017236432128 (-50) * dy 7086017236432128 (-50) = dy 5574611913751550 (-47) :=
  dy_mul (by dyN)
@[local simp] theorem op128 : dy 8207810320884212 (-46) + dy 5574611913751550 (-47) = dy 5497558138879994 (-45) :=
  dy_add (by dyT)
@[local simp] theorem op129 : PyNum.sqrt (dy 5497558138879994 (-45)) = dy 7036874417766396 (-49) :=
  dy_sqrtN (by norm_num) (by norm_num) (by norm_num) (by norm_num) (by norm_num) (by norm_num) (by norm_num) (by norm_num)
@[local simp] theorem op130 : dy (-6079859496950719) (-49) / dy 7036874417766396 (-49) = dy (-7782220156096925) (-53) :=
  dy_div (by norm_num) (by dyN)
@[local simp] theorem op131 : dy 0 0 / dy 7036874417766396 (-49) = dy 0 0 :=
  dy_div (by norm_num) (by dyE)
@[local simp] theorem op132 : dy 7086017236432128 (-50) / dy 7036874417766396 (-49) = dy 4535051031316564 (-53) :=
  dy_div (by norm_num) (by dyN)
@[local simp] theorem op133 : (dy 4951760157141521 (-92) < dy (-7086017236433402) (-49)) = False :=
  by rw [dy_lt]; norm_num
@[local simp] theorem op134 : (dy 4951760157141521 (-92) < dy 5545936650502144 (-92)) = True :=
  by rw [dy_lt]; norm_num
@[local simp] theorem op135 : dy 6079859496950170 (-49) - dy 6079859496950719 (-49) = dy (-4829055069192192) (-92) :=
  dy_sub (by dyE)
@[local simp] theorem op136 : dy 6926155398447138 (-44) - dy 6926155398447148 (-44) = dy (-5629499534213120) (-93) :=
  dy_sub (by dyE)
@[local simp] theorem op137 : dy (-4829055069192192) (-92) * dy (-4829055069192192) (-92) = dy 5178029751926784 (-132) :=
  dy_mul (by dyE)
@[local simp] theorem op138 : dy 5178029751926784 (-132) + dy 0 0 = dy 5178029751926784 (-132) :=
  dy_add (by dyE)
@[local simp] theorem op139 : dy (-5629499534213120) (-93) * dy (-5629499534213120) (-93) = dy 7036874417766400 (-134) :=
  dy_mul (by dyE)
@[local simp] theorem op140 : dy 5178029751926784 (-132) + dy 7036874417766400 (-134) = dy 6937248356368384 (-132) :=
  dy_add (by dyE)
@[local simp] theorem op141 : PyNum.sqrt (dy 6937248356368384 (-132)) = dy 5589507054536852 (-92) :=
  dy_sqrtN (by norm_num) (by norm_num) (by norm_num) (by norm_num) (by norm_num) (by norm_num) (by norm_num) (by norm_num)
@[local simp] theorem op142 : -(dy (-7782220156096925) (-53)) = dy 7782220156096925 (-53) :=
  dy_neg (by norm_num)
@[local simp] theorem op143 : -(dy 4535051031316564 (-53)) = dy (-4535051031316564) (-53) :=
  dy_neg (by norm_num)
@[local simp] theorem op144 : (dy 7086017236432768 (-50) < dy 5589507054536852 (-92)) = False :=
  by rw [dy_lt]; norm_num
@[local simp] theorem op145 : (dy 4951760157141521 (-92) < dy 5589507054536852 (-92)) = True :=
  by rw [dy_lt]; norm_num
@[local simp] theorem op146 : dy 5589507054536852 (-92) * dy 7836568182116436 (-53) = dy 4863060303039607 (-92) :=
  dy_mul (by dyN)
@[local simp] theorem op147 : dy 5589507054536852 (-92) * dy 0 0 = dy 0 0 :=
  dy_mul (by dyE)
@[local simp] theorem op148 : dy 5589507054536852 (-92) * dy 8880954349988968 (-54) = dy 5511164523661969 (-93) :=
  dy_mul (by dyN)
@[local simp] theorem op149 : dy 6079859496950170 (-49) + dy 4863060303039607 (-92) = dy 6079859496950723 (-49) :=
  dy_add (by dyN)
@[local simp] theorem op150 : dy 6926155398447138 (-44) + dy 5511164523661969 (-93) = dy 6926155398447148 (-44) :=
  dy_add (by dyN)
@[local simp] theorem op151 : dy 7086017236432768 (-50) - dy 5589507054536852 (-92) = dy 7086017236431497 (-50) :=
  dy_sub (by dyN)
@[local simp] theorem op152 : dy 7782220156096925 (-53) * dy 7782220156096925 (-53) = dy 6723838214868355 (-53) :=
  dy_mul (by dyN)
@[local simp] theorem op153 : dy 6723838214868355 (-53) + dy 0 0 = dy 6723838214868355 (-53) :=
  dy_add (by dyE)
@[local simp] theorem op154 : dy (-4535051031316564) (-53) * dy (-4535051031316564) (-53) = dy 4566722079745274 (-54) :=
  dy_mul (by dyN)
@[local simp] theorem op155 : dy 6723838214868355 (-53) + dy 4566722079745274 (-54) = dy 4503599627370496 (-52) :=
  dy_add (by dyE)
@[local simp] theorem op156 : dy 7782220156096925 (-53) / dy 4503599627370496 (-52) = dy 7782220156096925 (-53) :=
  dy_div (by norm_num) (by dyE)
@[local simp] theorem op157 : dy (-4535051031316564) (-53) / dy 4503599627370496 (-52) = dy (-4535051031316564) (-53) :=
  dy_div (by norm_num) (by dyE)
@[local simp] theorem op158 : dy 7836568182116436 (-53) * dy 7782220156096925 (-53) = dy 6770794909349217 (-53) :=
  dy_mul (by dyN)
@[local simp] theorem op159 : dy 6770794909349217 (-53) + dy 0 0 = dy 6770794909349217 (-53) :=
  dy_add (by dyE)
@[local simp] theorem op160 : dy 8880954349988968 (-54) * dy (-4535051031316564) (-53) = dy (-8942975512125705) (-55) :=
  dy_mul (by dyN)
@[local simp] theorem op161 : dy 6770794909349217 (-53) + dy (-8942975512125705) (-55) = dy 4535051031317791 (-53) :=
  dy_add (by dyN)
@[local simp] theorem op162 : dy 4503599627370496 (-51) * dy 4535051031317791 (-53) = dy 4535051031317791 (-52) :=
  dy_mul (by dyE)
@[local simp] theorem op163 : dy 4535051031317791 (-52) * dy 7782220156096925 (-53) = dy 7836568182117856 (-53) :=
  dy_mul (by dyN)
@[local simp] theorem op164 : dy 4535051031317791 (-52) * dy 0 0 = dy 0 0 :=
  dy_mul (by dyE)
@[local simp] theorem op165 : dy 4535051031317791 (-52) * dy (-4535051031316564) (-53) = dy (-4566722079746509) (-53) :=
  dy_mul (by dyN)
@[local simp] theorem op166 : dy 7836568182116436 (-53) - dy 7836568182117856 (-53) = dy (-6245226045767680) (-95) :=
  dy_sub (by dyE)
@[local simp] theorem op167 : dy 8880954349988968 (-54) - dy (-4566722079746509) (-53) = dy 4503599627370496 (-52) :=
  dy_sub (by dyP)
@[local simp] theorem op168 : dy (-6245226045767680) (-95) * dy (-6245226045767680) (-95) = dy 8660372055654400 (-138) :=
  dy_mul (by dyE)
@[local simp] theorem op169 : dy 8660372055654400 (-138) + dy 0 0 = dy 8660372055654400 (-138) :=
  dy_add (by dyE)
@[local simp] theorem op170 : dy 8660372055654400 (-138) + dy 4503599627370496 (-52) = dy 4503599627370496 (-52) :=
  dy_add (by dyP)
@[local simp] theorem op171 : dy (-6245226045767680) (-95) / dy 4503599627370496 (-52) = dy (-6245226045767680) (-95) :=
  dy_div (by norm_num) (by dyE)
@[local simp] theorem op172 : (dy 0 0 < dy 7086017236431497 (-50)) = True :=
  by rw [dy_lt]; norm_num
@[local simp] theorem op173 : dy 0 0 - dy 6079859496950723 (-49) = dy (-6079859496950723) (-49) :=
  dy_sub (by dyE)
@[local simp] theorem op174 : dy (-6245226045767680) (-95) * dy (-6079859496950723) (-49) = dy 8431055161787135 (-92) :=
  dy_mul (by dyN)
@[local simp] theorem op175 : dy 8431055161787135 (-92) + dy 0 0 = dy 8431055161787135 (-92) :=
  dy_add (by dyE)
@[local simp] theorem op176 : dy 4503599627370496 (-52) * dy 7086017236432128 (-50) = dy 7086017236432128 (-50) :=
  dy_mul (by dyE)
@[local simp] theorem op177 : dy 8431055161787135 (-92) + dy 7086017236432128 (-50) = dy 7086017236434045 (-50) :=
  dy_add (by dyN)
@[local simp] theorem op178 : dy (-6079859496950723) (-49) * dy (-6079859496950723) (-49) = dy 8207810320884223 (-46) :=
  dy_mul (by dyN)
@[local simp] theorem op179 : dy 8207810320884223 (-46) + dy 0 0 = dy 8207810320884223 (-46) :=
  dy_add (by dyE)
@[local simp] theorem op180 : dy 8207810320884223 (-46) + dy 5574611913751550 (-47) = dy 5497558138879999 (-45) :=
  dy_add (by dyE)
@[local simp] theorem op181 : dy 5497558138879999 (-45) - dy 5497558138880000 (-45) = dy (-4503599627370496) (-97) :=
  dy_sub (by dyE)
@[local simp] theorem op182 : dy 7086017236434045 (-50) * dy 7086017236434045 (-50) = dy 5574611913754566 (-47) :=
  dy_mul (by dyN)
@[local simp] theorem op183 : dy 5574611913754566 (-47) - dy (-4503599627370496) (-97) = dy 5574611913754570 (-47) :=
  dy_sub (by dyE)
@[local simp] theorem op184 : (dy 0 0 < dy 5574611913754570 (-47)) = True :=
  by rw [dy_lt]; norm_num
@[local simp] theorem op185 : PyNum.sqrt (dy 5574611913754570 (-47)) = dy 7086017236434048 (-50) :=
  dy_sqrtN (by norm_num) (by norm_num) (by norm_num) (by norm_num) (by norm_num) (by norm_num) (by norm_num) (by norm_num)
@[local simp] theorem op186 : dy 7086017236434045 (-50) - dy 7086017236434048 (-50) = dy (-6755399441055744) (-101) :=
  dy_sub (by dyE)
@[local simp] theorem op187 : dy 7086017236434045 (-50) + dy 7086017236434048 (-50) = dy 7086017236434046 (-49) :=
  dy_add (by dyT)
@[local simp] theorem op188 : dy (-6755399441055744) (-101) * dy (-6245226045767680) (-95) = dy 4683919534325760 (-143) :=
  dy_mul (by dyE)
@[local simp] theorem op189 : dy (-6755399441055744) (-101) * dy 0 0 = dy 0 0 :=
  dy_mul (by dyE)
@[local simp] theorem op190 : dy (-6755399441055744) (-101) * dy 4503599627370496 (-52) = dy (-6755399441055744) (-101) :=
  dy_mul (by dyE)
@[local simp] theorem op191 : dy 6079859496950723 (-49) + dy 4683919534325760 (-143) = dy 6079859496950723 (-49) :=
  dy_add (by dyN)
@[local simp] theorem op192 : dy 6926155398447148 (-44) + dy (-6755399441055744) (-101) = dy 6926155398447148 (-44) :=
  dy_add (by dyN)
@[local simp] theorem op193 : dy 7086017236434046 (-49) * dy (-6245226045767680) (-95) = dy (-4913156482293137) (-91) :=
  dy_mul (by dyN)
@[local simp] theorem op194 : dy 7086017236434046 (-49) * dy 0 0 = dy 0 0 :=
  dy_mul (by dyE)
@[local simp] theorem op195 : dy 7086017236434046 (-49) * dy 4503599627370496 (-52) = dy 7086017236434046 (-49) :=
  dy_mul (by dyE)
@[local simp] theorem op196 : dy 6079859496950723 (-49) + dy (-4913156482293137) (-91) = dy 6079859496949606 (-49) :=
  dy_add (by dyN)
@[local simp] theorem op197 : dy 6926155398447148 (-44) + dy 7086017236434046 (-49) = dy 7147593437085712 (-44) :=
  dy_add (by dyN)
@[local simp] theorem op198 : PyNum.sqrt (dy 5497558138879999 (-45)) = dy 7036874417766399 (-49) :=
  dy_sqrtN (by norm_num) (by norm_num) (by norm_num) (by norm_num) (by norm_num) (by norm_num) (by norm_num) (by norm_num)
@[local simp] theorem op199 : dy (-6079859496950723) (-49) / dy 7036874417766399 (-49) = dy (-7782220156096927) (-53) :=
  dy_div (by norm_num) (by dyN)
@[local simp] theorem op200 : dy 0 0 / dy 7036874417766399 (-49) = dy 0 0 :=
  dy_div (by norm_num) (by dyE)
@[local simp] theorem op201 : dy 7086017236432128 (-50) / dy 7036874417766399 (-49) = dy 4535051031316563 (-53) :=
  dy_div (by norm_num) (by dyN)
@[local simp] theorem op202 : dy 0 0 - dy 6079859496949606 (-49) = dy (-6079859496949606) (-49) :=
  dy_sub (by dyE)
@[local simp] theorem op203 : dy 7036874417766400 (-44) - dy 7147593437085712 (-44) = dy (-7086017236435968) (-50) :=
  dy_sub (by dyE)
@[local simp] theorem op204 : dy (-6079859496949606) (-49) * dy (-6079859496949606) (-49) = dy 8207810320881207 (-46) :=
  dy_mul (by dyN)
@[local simp] theorem op205 : dy 8207810320881207 (-46) + dy 0 0 = dy 8207810320881207 (-46) :=
  dy_add (by dyE)
@[local simp] theorem op206 : dy (-7086017236435968) (-50) * dy (-7086017236435968) (-50) = dy 5574611913757591 (-47) :=
  dy_mul (by dyN)
@[local simp] theorem op207 : dy 8207810320881207 (-46) + dy 5574611913757591 (-47) = dy 5497558138880001 (-45) :=
  dy_add (by dyN)
@[local simp] theorem op208 : PyNum.sqrt (dy 5497558138880001 (-45)) = dy 7036874417766401 (-49) :=
  dy_sqrtN (by norm_num) (by norm_num) (by norm_num) (by norm_num) (by norm_num) (by norm_num) (by norm_num) (by norm_num)
@[local simp] theorem op209 : dy (-6079859496949606) (-49) / dy 7036874417766401 (-49) = dy (-7782220156095495) (-53) :=
  dy_div (by norm_num) (by dyN)
@[local simp] theorem op210 : dy 0 0 / dy 7036874417766401 (-49) = dy 0 0 :=
  dy_div (by norm_num) (by dyE)
@[local simp] theorem op211 : dy (-7086017236435968) (-50) / dy 7036874417766401 (-49) = dy (-4535051031319019) (-53) :=
  dy_div (by norm_num) (by dyN)
@[local simp] theorem op212 : (dy 4951760157141521 (-92) < dy (-6755399441055744) (-101)) = False :=
  by rw [dy_lt]; norm_num
@[local simp] theorem op213 : (dy 4951760157141521 (-92) < dy 7086017236434046 (-49)) = True :=
  by rw [dy_lt]; norm_num
@[local simp] theorem op214 : dy 6079859496950723 (-49) - dy 6079859496949606 (-49) = dy 4912617952903168 (-91) :=
  dy_sub (by dyE)
@[local simp] theorem op215 : dy 6926155398447148 (-44) - dy 7147593437085712 (-44) = dy (-7086017236434048) (-49) :=
  dy_sub (by dyE)
@[local simp] theorem op216 : dy 4912617952903168 (-91) * dy 4912617952903168 (-91) = dy 5358783450578944 (-130) :=
  dy_mul (by dyE)
@[local simp] theorem op217 : dy 5358783450578944 (-130) + dy 0 0 = dy 5358783450578944 (-130) :=
  dy_add (by dyE)
@[local simp] theorem op218 : dy (-7086017236434048) (-49) * dy (-7086017236434048) (-49) = dy 5574611913754571 (-45) :=
  dy_mul (by dyN)
@[local simp] theorem op219 : dy 5358783450578944 (-130) + dy 5574611913754571 (-45) = dy 5574611913754571 (-45) :=
  dy_add (by dyN)
@[local simp] theorem op220 : PyNum.sqrt (dy 5574611913754571 (-45)) = dy 7086017236434048 (-49) :=
  dy_sqrtN (by norm_num) (by norm_num) (by norm_num) (by norm_num) (by norm_num) (by norm_num) (by norm_num) (by norm_num)
@[local simp] theorem op221 : -(dy (-7782220156095495) (-53)) = dy 7782220156095495 (-53) :=
  dy_neg (by norm_num)
@[local simp] theorem op222 : -(dy (-4535051031319019) (-53)) = dy 4535051031319019 (-53) :=
  dy_neg (by norm_num)
@[local simp] theorem op223 : (dy 7086017236431497 (-50) < dy 7086017236434048 (-49)) = True :=
  by rw [dy_lt]; norm_num
@[local simp] theorem op224 : dy 7086017236431497 (-50) * dy (-6245226045767680) (-95) = dy (-4913156482291370) (-92) :=
  dy_mul (by dyN)
@[local simp] theorem op225 : dy 7086017236431497 (-50) * dy 0 0 = dy 0 0 :=
  dy_mul (by dyE)
@[local simp] theorem op226 : dy 7086017236431497 (-50) * dy 4503599627370496 (-52) = dy 7086017236431497 (-50) :=
  dy_mul (by dyE)
@[local simp] theorem op227 : dy 6079859496950723 (-49) + dy (-4913156482291370) (-92) = dy 6079859496950164 (-49) :=
  dy_add (by dyN)
@[local simp] theorem op228 : dy 6926155398447148 (-44) + dy 7086017236431497 (-50) = dy 7036874417766390 (-44) :=
  dy_add (by dyN)
@[local simp] theorem op229 : dy 7086017236431497 (-50) - dy 7036874417766400 (-44) = dy (-6926155398447158) (-44) :=
  dy_sub (by dyN)
@[local simp] theorem op230 : (dy 0 0 < dy (-6926155398447158) (-44)) = False :=
  by rw [dy_lt]; norm_num

/-! ## Vectors -/

@[local simp] theorem mk_add (a b c d e f : D64) : (⟨a, b, c⟩ : V3 D64) + ⟨d, e, f⟩ = ⟨a + d, b + e, c + f⟩ := rfl
@[local simp] theorem mk_sub (a b c d e f : D64) : (⟨a, b, c⟩ : V3 D64) - ⟨d, e, f⟩ = ⟨a - d, b - e, c - f⟩ := rfl
@[local simp] theorem mk_neg (a b c : D64) : -(⟨a, b, c⟩ : V3 D64) = ⟨-a, -b, -c⟩ := rfl
@[local simp] theorem mk_smul (t a b c : D64) : t * (⟨a, b, c⟩ : V3 D64) = ⟨t * a, t * b, t * c⟩ := rfl
@[local simp] theorem mk_sdiv (t a b c : D64) : (⟨a, b, c⟩ : V3 D64) / t = ⟨a / t, b / t, c / t⟩ := rfl
@[local simp] theorem mk_dot (a b c d e f : D64) : dot (⟨a, b, c⟩ : V3 D64) ⟨d, e, f⟩ = a * d + b * e + c * f := rfl

theorem ltInf_dy (m e : ℤ) : PyNum.ltInf (dy m e) = true := rfl

/-! ## The run -/

/-- The ball. -/
noncomputable def ball : Mirror D64 :=
  { position := ⟨dy 0 0, dy 0 0, dy 7036874417766400 (-44)⟩, shape := "circular_convex_spherical", D := some (dy 7036874417766400 (-48)), w := none, h := none, f := none,
    type := "normal", dmdNormal := ⟨dy 0 0, dy 0 0, dy 4503599627370496 (-52)⟩, normal := none,
    surfaces := [.sphere ⟨⟨dy 0 0, dy 0 0, dy 7036874417766400 (-44)⟩, dy 7036874417766400 (-49), dy 7036874417766400 (-48)⟩] }

theorem ball_type : ball.type = "normal" := rfl

theorem ball_new : Mirror.new ⟨0.0, 0.0, 400.0⟩ "circular_convex_spherical" none (some 25.0) none none none none "normal"
    (some ⟨0.0, 0.0, 1.0⟩) = .ok ball := by
  simp [Mirror.new, Sphere.new, checkRAndD, need, bind, Except.bind, pure, Except.pure, unitVector, V3.norm, ball]

theorem sphere0 (ray : Ray D64) (hp : ray.position = ⟨dy 6079859496950170 (-49), dy 0 0, dy 0 0⟩)
    (hd : ray.direction = ⟨dy 0 0, dy 0 0, dy 4503599627370496 (-52)⟩) :
    Sphere.testIntersect ⟨⟨dy 0 0, dy 0 0, dy 7036874417766400 (-44)⟩, dy 7036874417766400 (-49), dy 7036874417766400 (-48)⟩ ray =
      Hit6.two ⟨dy 6079859496950170 (-49), dy 0 0, dy 7147593437085662 (-44)⟩ ⟨dy 6079859496950170 (-49), dy 0 0, dy 6926155398447138 (-44)⟩
      ⟨dy (-7782220156096568) (-53), dy 0 0, dy (-4535051031317176) (-53)⟩ ⟨dy (-7782220156096568) (-53), dy 0 0, dy 4535051031317176 (-53)⟩ 2 := by
  simp [Sphere.testIntersect, hp, hd, Sphere.normal, unitVector, V3.norm, clippingFloor]

theorem dist0 : distanceBetween ⟨dy 6079859496950170 (-49), dy 0 0, dy 0 0⟩ ⟨dy 6079859496950170 (-49), dy 0 0, dy 6926155398447138 (-44)⟩ = dy 6926155398447138 (-44) := by
  simp [distanceBetween, V3.norm]

theorem mirror0 (ray : Ray D64) (hp : ray.position = ⟨dy 6079859496950170 (-49), dy 0 0, dy 0 0⟩)
    (hd : ray.direction = ⟨dy 0 0, dy 0 0, dy 4503599627370496 (-52)⟩) :
    (Optic.mirror ball).testIntersect ray = .ok ⟨true, some ⟨dy 6079859496950170 (-49), dy 0 0, dy 6926155398447138 (-44)⟩,
      some ⟨dy 7782220156096568 (-53), dy 0 0, dy (-4535051031317176) (-53)⟩, .count 2⟩ := by
  simp [Optic.testIntersect, Mirror.testIntersect, ball, sphereStep, sphere0 ray hp hd, Hit6.one, Hit6.two, sphereUpdate,
    ltMin, ltInf_dy, need, bound, hp, distanceBetween, V3.norm, bind, Except.bind, pure, Except.pure]

theorem specular0 : specular ⟨dy 0 0, dy 0 0, dy 4503599627370496 (-52)⟩ ⟨dy 7782220156096568 (-53), dy 0 0, dy (-4535051031317176) (-53)⟩ =
    ⟨dy 7836568182116436 (-53), dy 0 0, dy 8880954349988968 (-54)⟩ := by
  simp [specular, unitVector, V3.norm]

theorem pass0 (s : RunState D64) (hp : s.ray.position = ⟨dy 6079859496950170 (-49), dy 0 0, dy 0 0⟩)
    (hd : s.ray.direction = ⟨dy 0 0, dy 0 0, dy 4503599627370496 (-52)⟩) (hr : s.remaining = dy 7036874417766400 (-44)) (ht : s.ray.type = "normal")
    (hb : s.ray.blocked = false) : ∃ s', runStep (400.0 : D64) [.mirror ball] s = .next s' ∧
      s'.ray.position = ⟨dy 6079859496950170 (-49), dy 0 0, dy 6926155398447138 (-44)⟩ ∧
      s'.ray.direction = ⟨dy 7836568182116436 (-53), dy 0 0, dy 8880954349988968 (-54)⟩ ∧ s'.remaining = dy 7086017236432768 (-50) ∧ s'.ray.type = "normal" ∧
      s'.ray.blocked = false ∧ s'.interactions = s.interactions + 1 := by
  have hm := mirror0 s.ray hp hd
  have hd0 := dist0
  simp [runStep, List.foldlM, scanStep, Optic.skipped, hm, bind, Except.bind, pure, Except.pure, need, hp, hd0, hr,
    clippingFloor, ltMin, ltInf_dy, Ray.fly, hd, ht, Optic.doIntersect, Mirror.doIntersect, ball_type, Ray.reflect, hb,
    specular0, Functor.map, Except.map]

theorem sphere1 (ray : Ray D64) (hp : ray.position = ⟨dy 6079859496950170 (-49), dy 0 0, dy 6926155398447138 (-44)⟩)
    (hd : ray.direction = ⟨dy 7836568182116436 (-53), dy 0 0, dy 8880954349988968 (-54)⟩) :
    Sphere.testIntersect ⟨⟨dy 0 0, dy 0 0, dy 7036874417766400 (-44)⟩, dy 7036874417766400 (-49), dy 7036874417766400 (-48)⟩ ray =
      Hit6.one ⟨dy 6079859496950719 (-49), dy 0 0, dy 6926155398447148 (-44)⟩
      ⟨dy (-7782220156096925) (-53), dy 0 0, dy 4535051031316564 (-53)⟩ 1 := by
  simp [Sphere.testIntersect, hp, hd, Sphere.normal, unitVector, V3.norm, clippingFloor]

theorem dist1 : distanceBetween ⟨dy 6079859496950170 (-49), dy 0 0, dy 6926155398447138 (-44)⟩ ⟨dy 6079859496950719 (-49), dy 0 0, dy 6926155398447148 (-44)⟩ = dy 5589507054536852 (-92) := by
  simp [distanceBetween, V3.norm]

theorem mirror1 (ray : Ray D64) (hp : ray.position = ⟨dy 6079859496950170 (-49), dy 0 0, dy 6926155398447138 (-44)⟩)
    (hd : ray.direction = ⟨dy 7836568182116436 (-53), dy 0 0, dy 8880954349988968 (-54)⟩) :
    (Optic.mirror ball).testIntersect ray = .ok ⟨true, some ⟨dy 6079859496950719 (-49), dy 0 0, dy 6926155398447148 (-44)⟩,
      some ⟨dy 7782220156096925 (-53), dy 0 0, dy (-4535051031316564) (-53)⟩, .count 1⟩ := by
  simp [Optic.testIntersect, Mirror.testIntersect, ball, sphereStep, sphere1 ray hp hd, Hit6.one, Hit6.two, sphereUpdate,
    ltMin, ltInf_dy, need, bound, hp, distanceBetween, V3.norm, bind, Except.bind, pure, Except.pure]

theorem specular1 : specular ⟨dy 7836568182116436 (-53), dy 0 0, dy 8880954349988968 (-54)⟩ ⟨dy 7782220156096925 (-53), dy 0 0, dy (-4535051031316564) (-53)⟩ =
    ⟨dy (-6245226045767680) (-95), dy 0 0, dy 4503599627370496 (-52)⟩ := by
  simp [specular, unitVector, V3.norm]

theorem pass1 (s : RunState D64) (hp : s.ray.position = ⟨dy 6079859496950170 (-49), dy 0 0, dy 6926155398447138 (-44)⟩)
    (hd : s.ray.direction = ⟨dy 7836568182116436 (-53), dy 0 0, dy 8880954349988968 (-54)⟩) (hr : s.remaining = dy 7086017236432768 (-50)) (ht : s.ray.type = "normal")
    (hb : s.ray.blocked = false) : ∃ s', runStep (400.0 : D64) [.mirror ball] s = .next s' ∧
      s'.ray.position = ⟨dy 6079859496950723 (-49), dy 0 0, dy 6926155398447148 (-44)⟩ ∧
      s'.ray.direction = ⟨dy (-6245226045767680) (-95), dy 0 0, dy 4503599627370496 (-52)⟩ ∧ s'.remaining = dy 7086017236431497 (-50) ∧ s'.ray.type = "normal" ∧
      s'.ray.blocked = false ∧ s'.interactions = s.interactions + 1 := by
  have hm := mirror1 s.ray hp hd
  have hd1 := dist1
  simp [runStep, List.foldlM, scanStep, Optic.skipped, hm, bind, Except.bind, pure, Except.pure, need, hp, hd1, hr,
    clippingFloor, ltMin, ltInf_dy, Ray.fly, hd, ht, Optic.doIntersect, Mirror.doIntersect, ball_type, Ray.reflect, hb,
    specular1, Functor.map, Except.map]

theorem sphere2 (ray : Ray D64) (hp : ray.position = ⟨dy 6079859496950723 (-49), dy 0 0, dy 6926155398447148 (-44)⟩)
    (hd : ray.direction = ⟨dy (-6245226045767680) (-95), dy 0 0, dy 4503599627370496 (-52)⟩) :
    Sphere.testIntersect ⟨⟨dy 0 0, dy 0 0, dy 7036874417766400 (-44)⟩, dy 7036874417766400 (-49), dy 7036874417766400 (-48)⟩ ray =
      Hit6.one ⟨dy 6079859496949606 (-49), dy 0 0, dy 7147593437085712 (-44)⟩
      ⟨dy (-7782220156095495) (-53), dy 0 0, dy (-4535051031319019) (-53)⟩ 1 := by
  simp [Sphere.testIntersect, hp, hd, Sphere.normal, unitVector, V3.norm, clippingFloor]

theorem dist2 : distanceBetween ⟨dy 6079859496950723 (-49), dy 0 0, dy 6926155398447148 (-44)⟩ ⟨dy 6079859496949606 (-49), dy 0 0, dy 7147593437085712 (-44)⟩ = dy 7086017236434048 (-49) := by
  simp [distanceBetween, V3.norm]

theorem mirror2 (ray : Ray D64) (hp : ray.position = ⟨dy 6079859496950723 (-49), dy 0 0, dy 6926155398447148 (-44)⟩)
    (hd : ray.direction = ⟨dy (-6245226045767680) (-95), dy 0 0, dy 4503599627370496 (-52)⟩) :
    (Optic.mirror ball).testIntersect ray = .ok ⟨true, some ⟨dy 6079859496949606 (-49), dy 0 0, dy 7147593437085712 (-44)⟩,
      some ⟨dy 7782220156095495 (-53), dy 0 0, dy 4535051031319019 (-53)⟩, .count 1⟩ := by
  simp [Optic.testIntersect, Mirror.testIntersect, ball, sphereStep, sphere2 ray hp hd, Hit6.one, Hit6.two, sphereUpdate,
    ltMin, ltInf_dy, need, bound, hp, distanceBetween, V3.norm, bind, Except.bind, pure, Except.pure]

theorem pass2 (s : RunState D64) (hp : s.ray.position = ⟨dy 6079859496950723 (-49), dy 0 0, dy 6926155398447148 (-44)⟩)
    (hd : s.ray.direction = ⟨dy (-6245226045767680) (-95), dy 0 0, dy 4503599627370496 (-52)⟩) (hr : s.remaining = dy 7086017236431497 (-50)) (ht : s.ray.type = "normal")
    (hb : s.ray.blocked = false) : ∃ s', runStep (400.0 : D64) [.mirror ball] s = .next s' ∧
      s'.ray.position = ⟨dy 6079859496950164 (-49), dy 0 0, dy 7036874417766390 (-44)⟩ ∧ s'.ray.direction = ⟨dy (-6245226045767680) (-95), dy 0 0, dy 4503599627370496 (-52)⟩ ∧ s'.remaining = dy (-6926155398447158) (-44) ∧
      s'.interactions = s.interactions := by
  have hm := mirror2 s.ray hp hd
  have hd2 := dist2
  simp [runStep, List.foldlM, scanStep, Optic.skipped, hm, bind, Except.bind, pure, Except.pure, need, hp, hd2, hr,
    clippingFloor, ltMin, ltInf_dy, Ray.fly, hd]

theorem start_position : (⟨10.8, 0.0, 0.0⟩ : V3 D64) = ⟨dy 6079859496950170 (-49), dy 0 0, dy 0 0⟩ := by simp
theorem start_direction : unitVector (⟨0.0, 0.0, 1.0⟩ : V3 D64) = ⟨dy 0 0, dy 0 0, dy 4503599627370496 (-52)⟩ := by simp [unitVector, V3.norm]
theorem start_budget : (400.0 : D64) = dy 7036874417766400 (-44) := by simp

theorem continues0 (s : RunState D64) (hr : s.remaining = dy 7036874417766400 (-44)) (hb : s.ray.blocked = false) :
    s.continues none = true := by simp [RunState.continues, hr, hb]

theorem continues1 (s : RunState D64) (hr : s.remaining = dy 7086017236432768 (-50)) (hb : s.ray.blocked = false) :
    s.continues none = true := by simp [RunState.continues, hr, hb]

theorem continues2 (s : RunState D64) (hr : s.remaining = dy 7086017236431497 (-50)) (hb : s.ray.blocked = false) :
    s.continues none = true := by simp [RunState.continues, hr, hb]

theorem stops (s : RunState D64) (hr : s.remaining = dy (-6926155398447158) (-44)) : s.continues none = false := by
  simp [RunState.continues, hr]

end LeakyBall

end Optics
