import Verif.Lemmas.T2cA
import Verif.Lemmas.T2cB
import Verif.Lemmas.T2cC
import Verif.Lemmas.T2cD
import Verif.Lemmas.T2cE
import Verif.Lemmas.T2cF
import Verif.Lemmas.T2cG
import Verif.Lemmas.T2cH

/-!
# Temperature from pressure and enthalpy in subregion 2c: the certificate as a whole
-/

namespace PyX.Kron.T2c

def tree : CTree :=
  .sy (.sx (.sy (.sx (.sy (t0) (t1)) (.sy (t2) (.sx (.sy (t3) (.sx (t4) (.sy (t5) (t6)))) (.sy (.sy (t7) (t8)) (.sy
    (t9) (t10)))))) (.sx (.sy (.sx (t11) (.sy (.sx (t12) (.sy (t13) (.sx (t14) (t15)))) (.sx (.sx (t16) (.sy (.sx
    (t17) (.sy (t18) (t19))) (t20))) (.sy (.sx (t21) (t22)) (t23))))) (.sx (.sx (t24) (.sy (.sx (t25) (.sy (t26)
    (t27))) (.sx (.sx (t28) (t29)) (.sy (t30) (t31))))) (.sy (.sx (.sy (.sx (t32) (t33)) (.sx (t34) (t35))) (.sy (.sx
    (t36) (t37)) (t38))) (.sx (.sy (.sx (.sy (t39) (t40)) (t41)) (.sx (.sy (t42) (t43)) (t44))) (t45))))) (.sy (.sx
    (.sy (.sx (.sy (.sx (t46) (t47)) (t48)) (t49)) (.sx (.sy (t50) (.sx (t51) (t52))) (.sy (.sx (.sy (t53) (t54))
    (.sy (.sx (t55) (t56)) (t57))) (t58)))) (.sy (.sx (.sy (t59) (.sx (.sy (t60) (.sy (t61) (t62))) (t63))) (.sy
    (t64) (t65))) (t66))) (t67)))) (.sy (.sx (.sy (.sy (t68) (.sx (t69) (.sy (t70) (t71)))) (.sx (.sy (.sy (t72)
    (t73)) (.sy (t74) (.sx (t75) (.sy (t76) (.sx (t77) (.sy (t78) (.sx (t79) (t80)))))))) (.sy (t81) (.sx (.sy (t82)
    (.sx (.sy (t83) (t84)) (.sy (.sy (t85) (t86)) (t87)))) (.sy (t88) (t89)))))) (.sy (.sy (.sy (t90) (t91)) (.sy
    (.sx (.sy (t92) (t93)) (t94)) (t95))) (.sx (.sy (t96) (t97)) (.sy (.sy (t98) (.sy (t99) (t100))) (t101))))) (.sx
    (.sy (.sx (.sy (.sy (.sx (.sx (t102) (.sy (.sy (t103) (t104)) (t105))) (t106)) (t107)) (t108)) (t109)) (t110))
    (t111)))) (.sx (.sy (.sx (.sx (.sy (.sy (.sx (t112) (.sy (.sx (t113) (.sy (.sx (t114) (t115)) (t116))) (.sx (.sy
    (t117) (t118)) (t119)))) (.sx (.sy (.sx (t120) (.sx (t121) (.sx (t122) (t123)))) (.sx (t124) (.sx (.sx (.sy
    (t125) (t126)) (t127)) (t128)))) (t129))) (.sx (.sx (.sy (.sy (.sx (t130) (.sx (t131) (t132))) (t133)) (t134))
    (t135)) (t136))) (t137)) (t138)) (t139)) (t140))

theorem checked : checkC job ⟨6, 8, 8, 10, 9, 13⟩ 1 25 lims tree 52 48 1 3 3 8 = true :=
  (checkC_sy (checkC_sx (checkC_sy (checkC_sx (checkC_sy c0 c1) (checkC_sy c2 (checkC_sx (checkC_sy c3 (checkC_sx c4
    (checkC_sy c5 c6))) (checkC_sy (checkC_sy c7 c8) (checkC_sy c9 c10))))) (checkC_sx (checkC_sy (checkC_sx c11
    (checkC_sy (checkC_sx c12 (checkC_sy c13 (checkC_sx c14 c15))) (checkC_sx (checkC_sx c16 (checkC_sy (checkC_sx
    c17 (checkC_sy c18 c19)) c20)) (checkC_sy (checkC_sx c21 c22) c23)))) (checkC_sx (checkC_sx c24 (checkC_sy
    (checkC_sx c25 (checkC_sy c26 c27)) (checkC_sx (checkC_sx c28 c29) (checkC_sy c30 c31)))) (checkC_sy (checkC_sx
    (checkC_sy (checkC_sx c32 c33) (checkC_sx c34 c35)) (checkC_sy (checkC_sx c36 c37) c38)) (checkC_sx (checkC_sy
    (checkC_sx (checkC_sy c39 c40) c41) (checkC_sx (checkC_sy c42 c43) c44)) c45)))) (checkC_sy (checkC_sx (checkC_sy
    (checkC_sx (checkC_sy (checkC_sx c46 c47) c48) c49) (checkC_sx (checkC_sy c50 (checkC_sx c51 c52)) (checkC_sy
    (checkC_sx (checkC_sy c53 c54) (checkC_sy (checkC_sx c55 c56) c57)) c58))) (checkC_sy (checkC_sx (checkC_sy c59
    (checkC_sx (checkC_sy c60 (checkC_sy c61 c62)) c63)) (checkC_sy c64 c65)) c66)) c67))) (checkC_sy (checkC_sx
    (checkC_sy (checkC_sy c68 (checkC_sx c69 (checkC_sy c70 c71))) (checkC_sx (checkC_sy (checkC_sy c72 c73)
    (checkC_sy c74 (checkC_sx c75 (checkC_sy c76 (checkC_sx c77 (checkC_sy c78 (checkC_sx c79 c80))))))) (checkC_sy
    c81 (checkC_sx (checkC_sy c82 (checkC_sx (checkC_sy c83 c84) (checkC_sy (checkC_sy c85 c86) c87))) (checkC_sy c88
    c89))))) (checkC_sy (checkC_sy (checkC_sy c90 c91) (checkC_sy (checkC_sx (checkC_sy c92 c93) c94) c95))
    (checkC_sx (checkC_sy c96 c97) (checkC_sy (checkC_sy c98 (checkC_sy c99 c100)) c101)))) (checkC_sx (checkC_sy
    (checkC_sx (checkC_sy (checkC_sy (checkC_sx (checkC_sx c102 (checkC_sy (checkC_sy c103 c104) c105)) c106) c107)
    c108) c109) c110) c111))) (checkC_sx (checkC_sy (checkC_sx (checkC_sx (checkC_sy (checkC_sy (checkC_sx c112
    (checkC_sy (checkC_sx c113 (checkC_sy (checkC_sx c114 c115) c116)) (checkC_sx (checkC_sy c117 c118) c119)))
    (checkC_sx (checkC_sy (checkC_sx c120 (checkC_sx c121 (checkC_sx c122 c123))) (checkC_sx c124 (checkC_sx
    (checkC_sx (checkC_sy c125 c126) c127) c128))) c129)) (checkC_sx (checkC_sx (checkC_sy (checkC_sy (checkC_sx c130
    (checkC_sx c131 c132)) c133) c134) c135) c136)) c137) c138) c139) c140))

end PyX.Kron.T2c
