import Verif.Lemmas.T2bA
import Verif.Lemmas.T2bB
import Verif.Lemmas.T2bC
import Verif.Lemmas.T2bD
import Verif.Lemmas.T2bE

/-!
# Temperature from pressure and enthalpy in subregion 2b: the certificate as a whole
-/

namespace PyX.Kron.T2b

def tree : CTree :=
  .sy (.sx (.sy (.sy (.sx (t0) (t1)) (.sx (t2) (.sy (.sx (t3) (.sy (t4) (.sx (t5) (.sy (t6) (t7))))) (.sx (.sy (t8)
    (.sx (t9) (.sx (t10) (t11)))) (.sy (.sx (t12) (t13)) (t14)))))) (.sx (.sy (.sx (t15) (.sy (.sx (t16) (.sy (t17)
    (.sx (t18) (.sy (t19) (t20))))) (.sx (.sy (t21) (t22)) (.sy (.sx (t23) (t24)) (t25))))) (.sx (.sy (t26) (.sx
    (t27) (.sx (t28) (.sy (t29) (.sx (t30) (.sy (t31) (.sx (t32) (t33)))))))) (.sy (.sx (.sy (t34) (.sx (t35) (.sx
    (t36) (t37)))) (.sy (.sx (.sx (t38) (t39)) (t40)) (t41))) (.sx (.sy (.sx (.sx (t42) (.sy (t43) (t44))) (t45))
    (.sx (.sy (.sx (.sx (t46) (t47)) (t48)) (t49)) (t50))) (t51))))) (.sy (.sx (.sy (.sx (.sy (.sx (.sy (t52) (t53))
    (t54)) (t55)) (t56)) (.sx (.sy (t57) (t58)) (t59))) (.sy (.sx (t60) (t61)) (t62))) (t63)))) (.sy (.sx (.sy (.sy
    (t64) (.sx (.sy (t65) (.sx (t66) (.sy (t67) (.sx (t68) (t69))))) (.sy (.sy (t70) (.sx (t71) (.sy (t72) (.sx (t73)
    (.sy (t74) (t75)))))) (.sy (.sx (.sy (t76) (.sx (t77) (t78))) (t79)) (t80))))) (.sx (.sy (.sy (.sx (.sy (t81)
    (t82)) (t83)) (t84)) (t85)) (t86))) (.sy (.sy (.sy (t87) (.sx (t88) (.sy (t89) (.sx (.sy (t90) (t91)) (t92)))))
    (.sx (.sy (.sy (.sx (.sy (t93) (.sx (t94) (t95))) (.sy (.sx (t96) (t97)) (t98))) (.sx (.sy (.sx (.sy (t99)
    (t100)) (t101)) (t102)) (t103))) (t104)) (t105))) (t106))) (t107))) (.sx (.sy (.sx (.sx (.sy (.sy (.sx (t108)
    (.sy (.sx (.sx (t109) (t110)) (.sy (.sx (.sx (t111) (t112)) (t113)) (t114))) (.sx (.sy (t115) (t116)) (t117))))
    (.sx (.sy (.sx (t118) (.sy (t119) (t120))) (.sx (t121) (t122))) (t123))) (.sx (.sx (.sy (.sy (t124) (t125))
    (t126)) (t127)) (t128))) (t129)) (t130)) (t131)) (t132))

theorem checked : checkC job ⟨6, 8, 8, 10, 9, 13⟩ 3 100 lims tree 52 48 1 3 3 8 = true :=
  (checkC_sy (checkC_sx (checkC_sy (checkC_sy (checkC_sx c0 c1) (checkC_sx c2 (checkC_sy (checkC_sx c3 (checkC_sy c4
    (checkC_sx c5 (checkC_sy c6 c7)))) (checkC_sx (checkC_sy c8 (checkC_sx c9 (checkC_sx c10 c11))) (checkC_sy
    (checkC_sx c12 c13) c14))))) (checkC_sx (checkC_sy (checkC_sx c15 (checkC_sy (checkC_sx c16 (checkC_sy c17
    (checkC_sx c18 (checkC_sy c19 c20)))) (checkC_sx (checkC_sy c21 c22) (checkC_sy (checkC_sx c23 c24) c25))))
    (checkC_sx (checkC_sy c26 (checkC_sx c27 (checkC_sx c28 (checkC_sy c29 (checkC_sx c30 (checkC_sy c31 (checkC_sx
    c32 c33))))))) (checkC_sy (checkC_sx (checkC_sy c34 (checkC_sx c35 (checkC_sx c36 c37))) (checkC_sy (checkC_sx
    (checkC_sx c38 c39) c40) c41)) (checkC_sx (checkC_sy (checkC_sx (checkC_sx c42 (checkC_sy c43 c44)) c45)
    (checkC_sx (checkC_sy (checkC_sx (checkC_sx c46 c47) c48) c49) c50)) c51)))) (checkC_sy (checkC_sx (checkC_sy
    (checkC_sx (checkC_sy (checkC_sx (checkC_sy c52 c53) c54) c55) c56) (checkC_sx (checkC_sy c57 c58) c59))
    (checkC_sy (checkC_sx c60 c61) c62)) c63))) (checkC_sy (checkC_sx (checkC_sy (checkC_sy c64 (checkC_sx (checkC_sy
    c65 (checkC_sx c66 (checkC_sy c67 (checkC_sx c68 c69)))) (checkC_sy (checkC_sy c70 (checkC_sx c71 (checkC_sy c72
    (checkC_sx c73 (checkC_sy c74 c75))))) (checkC_sy (checkC_sx (checkC_sy c76 (checkC_sx c77 c78)) c79) c80))))
    (checkC_sx (checkC_sy (checkC_sy (checkC_sx (checkC_sy c81 c82) c83) c84) c85) c86)) (checkC_sy (checkC_sy
    (checkC_sy c87 (checkC_sx c88 (checkC_sy c89 (checkC_sx (checkC_sy c90 c91) c92)))) (checkC_sx (checkC_sy
    (checkC_sy (checkC_sx (checkC_sy c93 (checkC_sx c94 c95)) (checkC_sy (checkC_sx c96 c97) c98)) (checkC_sx
    (checkC_sy (checkC_sx (checkC_sy c99 c100) c101) c102) c103)) c104) c105)) c106)) c107)) (checkC_sx (checkC_sy
    (checkC_sx (checkC_sx (checkC_sy (checkC_sy (checkC_sx c108 (checkC_sy (checkC_sx (checkC_sx c109 c110)
    (checkC_sy (checkC_sx (checkC_sx c111 c112) c113) c114)) (checkC_sx (checkC_sy c115 c116) c117))) (checkC_sx
    (checkC_sy (checkC_sx c118 (checkC_sy c119 c120)) (checkC_sx c121 c122)) c123)) (checkC_sx (checkC_sx (checkC_sy
    (checkC_sy c124 c125) c126) c127) c128)) c129) c130) c131) c132))

end PyX.Kron.T2b
